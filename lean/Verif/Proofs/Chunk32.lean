import Verif.Model.Chunk32
import Verif.Proofs.Int32
import Verif.Proofs.Variable
import Verif.Proofs.FiniteVolume
/- The checked arithmetic of `Model/Chunk32` agrees with the unbounded one on shapes that fit, and signals every overflow. -/
namespace QK
open Spec

/-! ### Boxes that fit -/

theorem prodMax_le {as bs : Box} (hh : List.Forall₂ (fun d e : Int × Int => d.1 ≤ e.1 ∧ e.2 ≤ d.2) as bs) :
    (bs.map (fun d => max 1 (d.2 - d.1))).prod ≤ (as.map (fun d => max 1 (d.2 - d.1))).prod := by
  induction hh with
  | nil => simp
  | cons h1 ht ih =>
    simp only [List.map_cons, List.prod_cons]
    exact mul_le_mul (max_le_max (le_refl _) (by omega)) ih (by linarith [prodMax_pos (by assumption : Box)])
      (le_trans (by norm_num) (le_max_left _ _))

theorem Spec.Fits32.sub {a b : Box} (ha : Fits32 a) (hw : Range.Within a b) (hb : ∀ d ∈ b, d.1 ≤ d.2) : Fits32 b := by
  refine ⟨?_, (prodMax_le hw).trans ha.2⟩
  have ha1 := ha.1
  clear ha
  induction hw with
  | nil => intro d hd; cases hd
  | cons h1 ht ih =>
    rename_i d e ds es
    intro x hx
    cases hx with
    | head =>
      have := ha1 d List.mem_cons_self
      have := hb e List.mem_cons_self
      omega
    | tail _ hx => exact ih (fun y hy => hb y (List.mem_cons_of_mem _ hy)) (fun y hy => ha1 y (List.mem_cons_of_mem _ hy)) x hx

theorem Spec.Fits32.left {a b : Box} (h : Fits32 (a ++ b)) : Fits32 a := by
  refine ⟨fun d hd => h.1 d (List.mem_append_left _ hd), ?_⟩
  have h2 := h.2
  rw [List.map_append, List.prod_append] at h2
  have := prodMax_pos a
  have := prodMax_pos b
  nlinarith

theorem Spec.Fits32.right {a b : Box} (h : Fits32 (a ++ b)) : Fits32 b := by
  refine ⟨fun d hd => h.1 d (List.mem_append_right _ hd), ?_⟩
  have h2 := h.2
  rw [List.map_append, List.prod_append] at h2
  have := prodMax_pos a
  have := prodMax_pos b
  nlinarith

theorem fits_within_refl (a : Box) : Range.Within a a := by
  induction a with
  | nil => exact .nil
  | cons d ds ih => exact .cons ⟨le_refl _, le_refl _⟩ ih

theorem within_append {a b c d : Box} (h1 : Range.Within a b) (h2 : Range.Within c d) : Range.Within (a ++ c) (b ++ d) := by
  induction h1 with
  | nil => exact h2
  | cons h _ ih => exact .cons h ih

theorem within_grow {g : Int} (hg : 0 ≤ g) (M : Box) : Range.Within (grow g M) M := by
  induction M with
  | nil => exact .nil
  | cons d ds ih => exact .cons ⟨show d.1 - g ≤ d.1 by omega, show d.2 ≤ d.2 + g by omega⟩ ih

theorem within_set {a b : Box} (h : Range.Within a b) {i : Nat} {p : Int × Int} (hp : ∀ (hi : i < a.length), (a[i]).1 ≤ p.1 ∧ p.2 ≤ (a[i]).2) :
    Range.Within a (b.set i p) := by
  induction h generalizing i with
  | nil => exact .nil
  | cons h1 ht ih =>
    cases i with
    | zero => exact .cons (hp (by simp)) ht
    | succ i => exact .cons h1 (ih (fun hi => hp (by simpa using hi)))

theorem le_set {b : Box} (h : ∀ d ∈ b, d.1 ≤ d.2) {i : Nat} {p : Int × Int} (hp : p.1 ≤ p.2) : ∀ d ∈ b.set i p, d.1 ≤ d.2 := by
  intro d hd
  rcases List.mem_or_eq_of_mem_set hd with h1 | h1
  · exact h d h1
  · subst h1; exact hp

/-! ### Agreement on shapes that fit -/

theorem copy32_ok {b : Box} (h : Fits32 b) : (Range.setup b).copy32 = .ok (Range.setup b) := setup32_ok h

theorem extrudeAll32_ok (ds : Box) : ∀ {b : Box}, Fits32 (b ++ ds) →
    Chunk.extrudeAll32 (Range.setup b) ds = .ok (Range.setup (b ++ ds)) := by
  induction ds with
  | nil => intro b _; simp [Chunk.extrudeAll32]
  | cons d ds ih =>
    intro b h
    have e : b ++ d :: ds = (b ++ [(d.1, d.2)]) ++ ds := by simp
    rw [e] at h
    rw [Chunk.extrudeAll32, Range.extrude32, Range.setup_dims, setup32_ok h.left, Res.ok_bind, ih h, e]

theorem resize32_iface_ok {α : Type} (zero : α) (f : IFace α) {b : Box} (h : Fits32 b) :
    f.resize32 zero (Range.setup b) = f.resize zero (Range.setup b) := by
  unfold IFace.resize32 IFace.resize
  rw [copy32_ok h, Res.ok_bind, volume32_ok h, Res.ok_bind, Range.copy_setup]

theorem resizeBase32_ok {α : Type} (zero : α) (c : Chunk α) {m d : Box} (h : Fits32 (m ++ d)) :
    c.resizeBase32 zero (Range.setup m) (Range.setup d) = c.resizeBase zero (Range.setup m) (Range.setup d) := by
  unfold Chunk.resizeBase32 Chunk.resizeBase
  simp only [copy32_ok h.left, copy32_ok h.right, Res.ok_bind, Range.copy_setup, Range.setup_dims, extrudeAll32_ok d h,
    resize32_iface_ok zero c.arr h, extrudeAll_eq (Range.setup_wf m)]

theorem expandLoop32_ok {g : Int} (hg : 0 ≤ g) (hg' : g ≤ 2147483647) {M : Box} (hM : ∀ d ∈ M, d.1 ≤ d.2) (h : Fits32 (grow g M)) :
    ∀ n, n ≤ M.length → Chunk.expandLoop32 g n (Range.setup M) = .ok (Range.setup (grow g (M.take n) ++ M.drop n)) := by
  intro n
  induction n with
  | zero => intro _; simp [Chunk.expandLoop32, grow]
  | succ n ih =>
    intro hn
    have hs := expandLoop_spec g (n + 1) (Range.setup M) (Range.setup_wf M) (by simpa using hn)
    rw [Chunk.expandLoop, expandLoop_spec g n (Range.setup M) (Range.setup_wf M) (by simp; omega), Res.ok_bind] at hs
    simp only [Range.setup_dims] at hs
    rw [Chunk.expandLoop32, ih (by omega), Res.ok_bind, i32_ok (by omega) (by omega), Res.ok_bind, ← hs]
    have hlen : n < (grow g (M.take n) ++ M.drop n).length := by simp; omega
    have hget : (grow g (M.take n) ++ M.drop n)[n]'hlen = M[n]'(by omega) := by
      rw [List.getElem_append_right (by simp)]
      have : n ≤ M.length := by omega
      simp [Nat.min_eq_left this]
    have hset : (grow g (M.take n) ++ M.drop n).set n ((M[n]'(by omega)).1 + -g, (M[n]'(by omega)).2 + g) =
        grow g (M.take (n + 1)) ++ M.drop (n + 1) := by
      have := hs
      rw [Range.expand_ok (r := Range.setup _) hlen] at this
      injection this with this
      have h2 := congrArg Range.dims this
      simpa [hget] using h2
    have hfit : Fits32 (grow g (M.take (n + 1)) ++ M.drop (n + 1)) := by
      refine h.sub ?_ ?_
      · have e : grow g M = grow g (M.take (n + 1)) ++ grow g (M.drop (n + 1)) := by
          rw [grow, grow, grow, ← List.map_append, List.take_append_drop]
        rw [e]
        exact within_append (fits_within_refl _) (within_grow hg _)
      · intro d hd
        rcases List.mem_append.1 hd with h1 | h1
        · obtain ⟨e, he, rfl⟩ := List.mem_map.1 h1
          have := hM e (List.mem_of_mem_take he)
          simp; omega
        · exact hM d (List.mem_of_mem_drop h1)
    have hd := h.1 ((M[n]'(by omega)).1 - g, (M[n]'(by omega)).2 + g) (List.mem_map.2 ⟨M[n]'(by omega), List.getElem_mem _, rfl⟩)
    simp only at hd
    rw [Range.expand32, Range.expand, Range.lower_ok (r := Range.setup _) hlen, Range.upper_ok (r := Range.setup _) hlen]
    simp only [Res.ok_bind, Range.setup_dims, hget]
    rw [i32_ok (by omega) (by omega), Res.ok_bind, i32_ok (by omega) (by omega), Res.ok_bind, Range.set32, Range.set]
    simp only [Range.setup_dims]
    rw [vset_nat hlen, Res.ok_bind, hset, setup32_ok hfit]
    rfl

theorem faces32_ok {g : Int} (hg : 0 ≤ g) {M D : Box} (hM : ∀ d ∈ M, d.1 ≤ d.2) (hD : ∀ d ∈ D, d.1 ≤ d.2)
    (h : Fits32 (grow g M ++ D)) {i : Nat} (hi : i < M.length) :
    Chunk.faces32 g (Range.setup (M ++ D)) i = Chunk.faces g (Range.setup (M ++ D)) i := by
  have hw : Range.Within (grow g M ++ D) (M ++ D) := within_append (within_grow hg M) (fits_within_refl D)
  have hle : ∀ d ∈ M ++ D, d.1 ≤ d.2 := by
    intro d hd
    rcases List.mem_append.1 hd with h1 | h1
    · exact hM d h1
    · exact hD d h1
  have hfit : Fits32 (M ++ D) := h.sub hw hle
  have hi' : i < (M ++ D).length := by simp; omega
  have hlo : lo (M ++ D) i = (M[i]).1 := by rw [lo_append hi]; simp [lo, List.getD_eq_getElem?_getD, List.getElem?_eq_getElem hi]
  have hhi : Spec.hi (M ++ D) i = (M[i]).2 := by rw [hi_append hi]; simp [Spec.hi, List.getD_eq_getElem?_getD, List.getElem?_eq_getElem hi]
  have hd := h.1 ((M[i]).1 - g, (M[i]).2 + g) (List.mem_append_left _ (List.mem_map.2 ⟨M[i], List.getElem_mem _, rfl⟩))
  simp only at hd
  have hm := hM M[i] (List.getElem_mem _)
  have hset : ∀ a b : Int, (M[i]).1 - g ≤ a → a ≤ b → b ≤ (M[i]).2 + g → (Range.setup (M ++ D)).set32 i a b = .ok (Range.setup (slab (M ++ D) i a b)) := by
    intro a b h1 h2 h3
    rw [Range.set32]
    simp only [Range.setup_dims]
    rw [vset_nat hi', Res.ok_bind]
    refine setup32_ok (h.sub (within_set hw ?_) (le_set hle h2))
    intro hj
    have : (grow g M ++ D)[i] = ((M[i]).1 - g, (M[i]).2 + g) := by
      rw [List.getElem_append_left (by simpa using hi)]
      simp [grow]
    rw [this]
    exact ⟨h1, h3⟩
  unfold Chunk.faces32 Chunk.faces
  simp only [copy32_ok hfit, Range.copy_setup, lower_setup hi', upper_setup hi', Res.ok_bind, hlo, hhi, set_setup hi']
  rw [i32_ok (by omega) (by omega), Res.ok_bind, hset _ _ (by omega) (by omega) (by omega), Res.ok_bind,
    i32_ok (by omega) (by omega), Res.ok_bind, hset _ _ (by omega) (by omega) (by omega), Res.ok_bind,
    i32_ok (by omega) (by omega), Res.ok_bind, hset _ _ (by omega) (by omega) (by omega), Res.ok_bind,
    i32_ok (by omega) (by omega), Res.ok_bind, hset _ _ (by omega) (by omega) (by omega), Res.ok_bind]

theorem facesLoop32_ok {g : Int} (hg : 0 ≤ g) {M D : Box} (hM : ∀ d ∈ M, d.1 ≤ d.2) (hD : ∀ d ∈ D, d.1 ≤ d.2)
    (h : Fits32 (grow g M ++ D)) : ∀ n, n ≤ M.length →
    Chunk.facesLoop32 g (Range.setup (M ++ D)) n = Chunk.facesLoop g (Range.setup (M ++ D)) n := by
  intro n
  induction n with
  | zero => intro _; rfl
  | succ n ih =>
    intro hn
    rw [Chunk.facesLoop32, Chunk.facesLoop, ih (by omega), faces32_ok hg hM hD h (by omega)]

theorem resize32_ok {α : Type} (zero : α) (c : Chunk α) {g : Int} (hg : 0 ≤ g) (hg' : g ≤ 2147483647) {M D : Box}
    (hM : ∀ d ∈ M, d.1 ≤ d.2) (hD : ∀ d ∈ D, d.1 ≤ d.2) (h : Fits32 (grow g M ++ D)) :
    c.resize32 zero (Range.setup M) (Range.setup D) g = c.resize zero (Range.setup M) (Range.setup D) g := by
  have hw : Range.Within (grow g M ++ D) (M ++ D) := within_append (within_grow hg M) (fits_within_refl D)
  have hle : ∀ d ∈ M ++ D, d.1 ≤ d.2 := by
    intro d hd
    rcases List.mem_append.1 hd with h1 | h1
    · exact hM d h1
    · exact hD d h1
  have hfit : Fits32 (M ++ D) := h.sub hw hle
  have e1 := expandLoop32_ok hg hg' hM h.left M.length (le_refl _)
  have e2 := expandLoop_spec g M.length (Range.setup M) (Range.setup_wf M) (by simp)
  have hn : (Range.setup M).numDims = M.length := rfl
  simp only [Range.setup_dims, List.take_length, List.drop_length, List.append_nil] at e1 e2
  unfold Chunk.resize32 Chunk.resize
  have e3 : Chunk.extrudeAll32 .empty M = .ok (Range.setup M) := extrudeAll32_ok M (b := []) hfit.left
  have e4 : Chunk.extrudeAll .empty M = Range.setup M := extrudeAll_eq (r := .empty) rfl M
  simp only [copy32_ok hfit.left, Range.copy_setup, Res.ok_bind, hn, e1, e2, resizeBase32_ok zero c h, Range.setup_dims, e3, e4,
    extrudeAll32_ok D hfit, extrudeAll_eq (Range.setup_wf M)]
  have hn' : (Range.setup (grow g M)).numDims = M.length := by simp [Range.numDims]
  rw [hn', facesLoop32_ok hg hM hD h M.length (le_refl _)]

theorem fits_chunkBox (n : Nat) : Fits32 (chunkBox n) := by
  refine ⟨fun d hd => ?_, ?_⟩
  · rw [chunkBox] at hd
    rw [List.eq_of_mem_replicate hd]; decide
  · rw [chunkBox, List.map_replicate]; simp

theorem make32_var_ok {α : Type} (zero : α) (name : String) (comps : List String) (basis : Basis) {M : Box} {g : Int} (hg : 0 ≤ g)
    (hM : ∀ d ∈ M, d.1 ≤ d.2) (hg' : g ≤ 2147483647) (hp : 0 ≤ basis.points)
    (h : Fits32 (grow g M ++ dataBox basis.points comps.length)) :
    Var.make32 zero name comps basis (Range.setup M) g = Var.make zero name comps basis (Range.setup M) g := by
  have hD : ∀ d ∈ dataBox basis.points comps.length, d.1 ≤ d.2 := by
    intro d hd
    simp only [dataBox, List.mem_cons, List.not_mem_nil, or_false] at hd
    rcases hd with rfl | rfl
    · exact hp
    · exact Int.natCast_nonneg _
  have hMf : Fits32 M := h.left.sub (within_grow hg M) hM
  have hDf := h.right
  have e1 : Range.empty.extrude32 0 basis.points = .ok (Range.setup [(0, basis.points)]) :=
    setup32_ok (b := [(0, basis.points)]) (Fits32.left (a := [(0, basis.points)]) (b := [(0, (comps.length : Int))]) hDf)
  have e2 : (Range.setup [(0, basis.points)]).extrude32 0 (comps.length : Int) = .ok (Range.setup (dataBox basis.points comps.length)) :=
    setup32_ok hDf
  have e3 : (Range.empty.extrude 0 basis.points).extrude 0 (comps.length : Int) = Range.setup (dataBox basis.points comps.length) := rfl
  have e4 : Chunk.extrudeAll32 .empty (List.replicate (Range.setup M).numDims ((0 : Int), (1 : Int))) = .ok (Range.setup (chunkBox M.length)) :=
    extrudeAll32_ok (b := []) _ (fits_chunkBox M.length)
  have e5 : Chunk.extrudeAll .empty (List.replicate (Range.setup M).numDims ((0 : Int), (1 : Int))) = Range.setup (chunkBox M.length) :=
    extrudeAll_eq (r := .empty) rfl _
  unfold Var.make32 Var.make
  simp only [copy32_ok hMf, Res.ok_bind, e1, e2, e3, e4, e5, volume32_ok hMf, Range.copy_setup, IFace.make,
    resize32_iface_ok _ _ (fits_chunkBox M.length), resize32_ok zero _ hg hg' hM hD h]

/-! ### Every overflow is signalled -/

/-- The checked computation agrees with the unchecked one or reports an overflow. -/
def Chk {α : Type} (x y : Res α) : Prop := x = .ub "signed overflow" ∨ x = y

theorem Chk.rfl' {α : Type} (x : Res α) : Chk x x := .inr rfl

theorem Chk.bind {α β : Type} {x y : Res α} {f g : α → Res β} (h : Chk x y) (hf : ∀ a, y = .ok a → Chk (f a) (g a)) :
    Chk (x >>= f) (y >>= g) := by
  rcases h with h | h
  · exact .inl (by rw [h]; rfl)
  · subst h
    cases x with
    | ok a => exact hf a rfl
    | throw m => exact .inr rfl
    | ub w => exact .inr rfl
    | diverge => exact .inr rfl

theorem i32_chk (x : Int) : Chk (i32 x) (.ok x) := by
  unfold i32
  split
  · exact .inr rfl
  · exact .inl rfl

/-- A checked number used at once. -/
theorem Chk.i32 {β : Type} (x : Int) {f : Int → Res β} {y : Res β} (hf : Chk (f x) y) : Chk (QK.i32 x >>= f) y := by
  have := Chk.bind (i32_chk x) (f := f) (g := fun _ => y) (fun a ha => by injection ha with ha; subst ha; exact hf)
  simpa using this

theorem strideLoop32_chk (b : Box) : Chk (Range.strideLoop32 b) (.ok (Range.strideLoop b)) := by
  induction b with
  | nil => exact .inr rfl
  | cons d ds ih =>
    cases ds with
    | nil => exact .inr rfl
    | cons e es =>
      rw [Range.strideLoop32]
      rcases ih with h | h
      · exact .inl (by rw [h]; rfl)
      · rw [h, Res.ok_bind]
        rw [show Range.strideLoop (d :: e :: es) = boxVolume (e :: es) :: Range.strideLoop (e :: es) from Range.strideLoop_cons ..]
        rw [Range.strideLoop_cons]
        refine Chk.i32 _ (Chk.i32 _ (.inr ?_))
        rw [boxVolume_cons, mul_comm]
        rfl

theorem setup32_chk (b : Box) : Chk (Range.setup32 b) (.ok (Range.setup b)) := by
  unfold Range.setup32
  rcases strideLoop32_chk b with h | h
  · exact .inl (by rw [h]; rfl)
  · exact .inr (by rw [h]; rfl)

theorem volume32_chk (r : Range) : Chk r.volume32 (.ok r.volume) := by
  obtain ⟨ds, ss⟩ := r
  cases ss with
  | nil => exact .inr rfl
  | cons s ss =>
    cases ds with
    | nil => exact .inr rfl
    | cons d ds => exact Chk.i32 _ (i32_chk _)

theorem set32_chk (r : Range) (dim a b : Int) : Chk (r.set32 dim a b) (r.set dim a b) := by
  unfold Range.set32 Range.set
  cases h : vset r.dims dim (a, b) with
  | ok ds => exact setup32_chk ds
  | throw m => exact .inr rfl
  | ub w => exact .inr rfl
  | diverge => exact .inr rfl

theorem expand32_chk (r : Range) (dim a b : Int) : Chk (r.expand32 dim a b) (r.expand dim a b) := by
  unfold Range.expand32 Range.expand
  refine Chk.bind (.rfl' _) fun l _ => Chk.bind (.rfl' _) fun u _ => Chk.i32 _ (Chk.i32 _ (set32_chk ..))

theorem extrudeAll32_chk (ds : Box) : ∀ (r : Range), Chk (Chunk.extrudeAll32 r ds) (.ok (Chunk.extrudeAll r ds)) := by
  induction ds with
  | nil => intro r; exact .inr rfl
  | cons d ds ih =>
    intro r
    rw [Chunk.extrudeAll32, Range.extrude32]
    rcases setup32_chk (r.dims ++ [(d.1, d.2)]) with h | h
    · exact .inl (by rw [h]; rfl)
    · rw [h, Res.ok_bind]; exact ih _

theorem resize32_iface_chk {α : Type} (zero : α) (f : IFace α) (r : Range) : Chk (f.resize32 zero r) (f.resize zero r) := by
  unfold IFace.resize32 IFace.resize Range.copy32
  rcases setup32_chk r.dims with h | h
  · exact .inl (by rw [h]; rfl)
  · rw [h, Res.ok_bind]
    rcases volume32_chk (Range.setup r.dims) with h | h
    · exact .inl (by rw [h]; rfl)
    · rw [h, Res.ok_bind]; exact .inr rfl

theorem Chk.copy {β : Type} (r : Range) {f : Range → Res β} {y : Res β} (hf : Chk (f r.copy) y) : Chk (r.copy32 >>= f) y := by
  unfold Range.copy32
  rcases setup32_chk r.dims with h | h
  · exact .inl (by rw [h]; rfl)
  · rw [h]; exact hf

theorem resizeBase32_chk {α : Type} (zero : α) (c : Chunk α) (m d : Range) : Chk (c.resizeBase32 zero m d) (c.resizeBase zero m d) := by
  unfold Chunk.resizeBase32 Chunk.resizeBase
  refine Chk.copy _ (Chk.copy _ (Chk.copy _ ?_))
  rcases extrudeAll32_chk d.dims m.copy.copy with h | h
  · exact .inl (by rw [h]; rfl)
  · rw [h, Res.ok_bind]
    exact Chk.bind (resize32_iface_chk ..) fun a _ => .rfl' _

theorem expandLoop32_chk (g : Int) : ∀ (n : Nat) (r : Range), Chk (Chunk.expandLoop32 g n r) (Chunk.expandLoop g n r) := by
  intro n
  induction n with
  | zero => intro r; exact .inr rfl
  | succ n ih =>
    intro r
    rw [Chunk.expandLoop32, Chunk.expandLoop]
    exact Chk.bind (ih r) fun a _ => Chk.i32 _ (expand32_chk ..)

theorem faces32_chk (g : Int) (r : Range) (i : Nat) : Chk (Chunk.faces32 g r i) (Chunk.faces g r i) := by
  unfold Chunk.faces32 Chunk.faces
  refine Chk.copy _ (Chk.bind (.rfl' _) fun l hl => Chk.i32 _ ?_)
  simp only [hl, Res.ok_bind]
  refine Chk.bind (set32_chk ..) fun le _ => Chk.copy _ ?_
  simp only [hl, Res.ok_bind]
  refine Chk.i32 _ (Chk.bind (set32_chk ..) fun li _ => Chk.copy _ (Chk.bind (.rfl' _) fun u hu => Chk.i32 _ ?_))
  simp only [hu, Res.ok_bind]
  refine Chk.bind (set32_chk ..) fun le _ => Chk.copy _ ?_
  simp only [hu, Res.ok_bind]
  exact Chk.i32 _ (Chk.bind (set32_chk ..) fun li _ => .rfl' _)

theorem facesLoop32_chk (g : Int) (r : Range) : ∀ n, Chk (Chunk.facesLoop32 g r n) (Chunk.facesLoop g r n) := by
  intro n
  induction n with
  | zero => exact .inr rfl
  | succ n ih => exact Chk.bind ih fun a _ => Chk.bind (faces32_chk ..) fun b _ => .rfl' _

theorem resize32_chk {α : Type} (zero : α) (c : Chunk α) (m d : Range) (g : Int) : Chk (c.resize32 zero m d g) (c.resize zero m d g) := by
  unfold Chunk.resize32 Chunk.resize
  refine Chk.copy _ (Chk.bind (expandLoop32_chk ..) fun ext _ => Chk.bind (resizeBase32_chk ..) fun c' _ => ?_)
  rcases extrudeAll32_chk m.dims .empty with h | h
  · exact .inl (by rw [h]; rfl)
  rw [h, Res.ok_bind]
  rcases extrudeAll32_chk d.dims (Chunk.extrudeAll .empty m.dims) with h | h
  · exact .inl (by rw [h]; rfl)
  rw [h, Res.ok_bind]
  exact Chk.bind (facesLoop32_chk ..) fun fs _ => .rfl' _

theorem make32_var_chk {α : Type} (zero : α) (name : String) (comps : List String) (basis : Basis) (m : Range) (g : Int) :
    Chk (Var.make32 zero name comps basis m g) (Var.make zero name comps basis m g) := by
  unfold Var.make32 Var.make
  refine Chk.copy _ ?_
  rcases setup32_chk (Range.empty.dims ++ [(0, basis.points)]) with h | h
  · exact .inl (by rw [Range.extrude32, h]; rfl)
  rw [Range.extrude32, h, Res.ok_bind]
  rcases setup32_chk ((Range.setup (Range.empty.dims ++ [(0, basis.points)])).dims ++ [(0, (comps.length : Int))]) with h | h
  · exact .inl (by rw [Range.extrude32, h]; rfl)
  rw [Range.extrude32, h, Res.ok_bind]
  rcases volume32_chk m.copy with h | h
  · exact .inl (by rw [h]; rfl)
  rw [h, Res.ok_bind]
  change Chk (if m.copy.volume > 0 then _ else _) (if m.copy.volume > 0 then _ else _)
  split
  · rcases extrudeAll32_chk (List.replicate m.copy.numDims (0, 1)) .empty with h | h
    · exact .inl (by rw [h]; rfl)
    rw [h, Res.ok_bind]
    exact Chk.bind (resize32_iface_chk ..) fun ch _ => Chk.bind (.rfl' _) fun c _ => Chk.bind (resize32_chk ..) fun c' _ => .rfl' _
  · exact .inr rfl

/-! ### Success means that the shape fits -/

theorem i32_inv {x y : Int} (h : i32 x = .ok y) : -2147483648 ≤ x ∧ x ≤ 2147483647 := by
  unfold i32 at h
  split at h
  · assumption
  · cases h

theorem Chk.ok {α : Type} {x y : Res α} (h : Chk x y) {a : α} (hx : x = .ok a) : y = .ok a := by
  rcases h with h | h
  · rw [h] at hx; cases hx
  · rw [← h, hx]

theorem volume32_inv {b : Box} {v : Int} (h : (Range.setup b).volume32 = .ok v) : boxVolume b ≤ 2147483647 := by
  cases b with
  | nil => simp [boxVolume_nil]
  | cons d ds =>
    have e : (Range.setup (d :: ds)).volume32 = (do let l ← Range.len32 d; i32 (boxVolume ds * l)) := by
      unfold Range.volume32 Range.setup
      rw [Range.strideLoop_cons]
    rw [e] at h
    obtain ⟨l, h1, h2⟩ := Res.bind_eq_ok.1 h
    have h3 := Chk.ok (i32_chk _) h1
    injection h3 with h3
    have := (i32_inv h2).2
    rw [boxVolume_cons, mul_comm, h3]
    exact this

theorem resizeBase32_inv {α : Type} {zero : α} {c c' : Chunk α} {m d : Box}
    (h : c.resizeBase32 zero (Range.setup m) (Range.setup d) = .ok c') : boxVolume (m ++ d) ≤ 2147483647 := by
  unfold Chunk.resizeBase32 at h
  obtain ⟨m1, h1, h⟩ := Res.bind_eq_ok.1 h
  obtain ⟨d1, _, h⟩ := Res.bind_eq_ok.1 h
  obtain ⟨r1, h2, h⟩ := Res.bind_eq_ok.1 h
  obtain ⟨r2, h3, h⟩ := Res.bind_eq_ok.1 h
  obtain ⟨a, h4, h⟩ := Res.bind_eq_ok.1 h
  have e1 := Chk.ok (setup32_chk _) h1
  injection e1 with e1
  have e2 := Chk.ok (setup32_chk _) h2
  injection e2 with e2
  have e3 := Chk.ok (extrudeAll32_chk _ _) h3
  injection e3 with e3
  subst e1 e2
  simp only [Range.setup_dims, extrudeAll_eq (Range.setup_wf m)] at e3
  subst e3
  unfold IFace.resize32 at h4
  obtain ⟨r3, h5, h4⟩ := Res.bind_eq_ok.1 h4
  obtain ⟨v, h6, _⟩ := Res.bind_eq_ok.1 h4
  have e5 := Chk.ok (setup32_chk _) h5
  injection e5 with e5
  subst e5
  exact volume32_inv h6

theorem expandLoop32_inv {g : Int} {M : Box} : ∀ {n : Nat} {r : Range}, n ≤ M.length →
    Chunk.expandLoop32 g n (Range.setup M) = .ok r →
    ∀ i (hi : i < M.length), i < n → -2147483648 ≤ (M[i]).1 - g ∧ (M[i]).2 + g ≤ 2147483647 := by
  intro n
  induction n with
  | zero => intro r _ _ i _ h; omega
  | succ n ih =>
    intro r hn h i hi hin
    rw [Chunk.expandLoop32] at h
    obtain ⟨r1, h1, h⟩ := Res.bind_eq_ok.1 h
    by_cases e : i = n
    · subst e
      obtain ⟨g', h2, h⟩ := Res.bind_eq_ok.1 h
      have e2 := Chk.ok (i32_chk _) h2
      injection e2 with e2
      subst e2
      have e1 := Chk.ok (expandLoop32_chk _ _ _) h1
      rw [expandLoop_spec g i (Range.setup M) (Range.setup_wf M) (by simp; omega)] at e1
      injection e1 with e1
      subst e1
      simp only [Range.setup_dims] at h
      have hlen : i < (grow g (M.take i) ++ M.drop i).length := by simp; omega
      have hget : (grow g (M.take i) ++ M.drop i)[i]'hlen = M[i]'(by omega) := by
        rw [List.getElem_append_right (by simp)]
        have : i ≤ M.length := by omega
        simp [Nat.min_eq_left this]
      rw [Range.expand32, Range.lower_ok (r := Range.setup _) hlen, Range.upper_ok (r := Range.setup _) hlen] at h
      simp only [Res.ok_bind, Range.setup_dims, hget] at h
      obtain ⟨a, h3, h⟩ := Res.bind_eq_ok.1 h
      obtain ⟨b, h4, _⟩ := Res.bind_eq_ok.1 h
      have := (i32_inv h3).1
      have := (i32_inv h4).2
      omega
    · exact ih (by omega) h1 i hi (by omega)

theorem resize32_inv {α : Type} {zero : α} {c c' : Chunk α} {M D : Box} {g : Int} (hg : 0 ≤ g) (hM : Pos M) (hD : Pos D)
    (hD' : ∀ d ∈ D, -2147483648 ≤ d.1 ∧ d.2 ≤ 2147483647)
    (h : c.resize32 zero (Range.setup M) (Range.setup D) g = .ok c') : Fits32 (grow g M ++ D) := by
  unfold Chunk.resize32 at h
  obtain ⟨r1, h1, h⟩ := Res.bind_eq_ok.1 h
  obtain ⟨ext, h2, h⟩ := Res.bind_eq_ok.1 h
  obtain ⟨c1, h3, _⟩ := Res.bind_eq_ok.1 h
  have e1 := Chk.ok (setup32_chk _) h1
  injection e1 with e1
  subst e1
  have hn : (Range.setup M).numDims = M.length := rfl
  simp only [Range.setup_dims, hn] at h2
  have e2 := Chk.ok (expandLoop32_chk _ _ _) h2
  rw [expandLoop_spec g M.length (Range.setup M) (Range.setup_wf M) (by simp)] at e2
  simp only [Range.setup_dims, List.take_length, List.drop_length, List.append_nil] at e2
  injection e2 with e2
  subst e2
  have hb := expandLoop32_inv (le_refl _) h2
  have hv := resizeBase32_inv h3
  have hp : Pos (grow g M ++ D) := pos_append.2 ⟨pos_grow hg hM, hD⟩
  refine ⟨?_, ?_⟩
  · intro d hd
    rcases List.mem_append.1 hd with h4 | h4
    · obtain ⟨e, he, rfl⟩ := List.mem_map.1 h4
      obtain ⟨i, hi, rfl⟩ := List.mem_iff_getElem.1 he
      have := hb i hi hi
      have := hM _ he
      simp only
      omega
    · have := hD d h4
      have := hD' d h4
      omega
  · have : (grow g M ++ D).map (fun d => max 1 (d.2 - d.1)) = lengths (grow g M ++ D) := by
      refine List.map_congr_left fun d hd => ?_
      have := hp d hd
      exact max_eq_right (by omega)
    rw [this]
    exact hv

/-- In a box without empty dimensions no length exceeds the volume. -/
theorem len_le_volume {b : Box} (h : Pos b) : ∀ d ∈ b, d.2 - d.1 ≤ boxVolume b := by
  induction b with
  | nil => intro d hd; cases hd
  | cons e b ih =>
    have hp := boxVolume_pos h.tail
    have he := h e List.mem_cons_self
    intro d hd
    rw [boxVolume_cons]
    rcases List.mem_cons.1 hd with rfl | hd
    · nlinarith
    · have := ih h.tail d hd
      nlinarith

theorem make32_var_inv {α : Type} {zero : α} {name : String} {comps : List String} {basis : Basis} {M : Box} {g : Int} {v : Var α}
    (hg : 0 ≤ g) (hne : M ≠ []) (hM : Pos M) (hp : 0 < basis.points) (hc : comps ≠ [])
    (h : Var.make32 zero name comps basis (Range.setup M) g = .ok v) : Fits32 (grow g M ++ dataBox basis.points comps.length) := by
  unfold Var.make32 at h
  obtain ⟨m1, h1, h⟩ := Res.bind_eq_ok.1 h
  obtain ⟨d0, h2, h⟩ := Res.bind_eq_ok.1 h
  obtain ⟨d1, h3, h⟩ := Res.bind_eq_ok.1 h
  obtain ⟨vol, h4, h⟩ := Res.bind_eq_ok.1 h
  have e1 := Chk.ok (setup32_chk _) h1
  injection e1 with e1
  have e2 := Chk.ok (setup32_chk _) h2
  injection e2 with e2
  subst e2
  have e3 := Chk.ok (setup32_chk _) h3
  injection e3 with e3
  subst e1 e3
  have e4 := Chk.ok (volume32_chk _) h4
  injection e4 with e4
  have hD : Pos (dataBox basis.points comps.length) := by
    intro d hd
    simp only [dataBox, List.mem_cons, List.not_mem_nil, or_false] at hd
    rcases hd with rfl | rfl
    · exact hp
    · show (0 : Int) < (comps.length : Int)
      exact_mod_cast List.length_pos_iff.2 hc
  by_cases hv : vol > 0
  · rw [if_pos hv] at h
    obtain ⟨cr, _, h⟩ := Res.bind_eq_ok.1 h
    obtain ⟨ch, _, h⟩ := Res.bind_eq_ok.1 h
    obtain ⟨c, _, h⟩ := Res.bind_eq_ok.1 h
    obtain ⟨c', h5, _⟩ := Res.bind_eq_ok.1 h
    refine resize32_inv hg hM hD ?_ h5
    have hvol : boxVolume (grow g M ++ dataBox basis.points comps.length) ≤ 2147483647 := by
      unfold Chunk.resize32 at h5
      obtain ⟨r1, k1, h5⟩ := Res.bind_eq_ok.1 h5
      obtain ⟨ext, k2, h5⟩ := Res.bind_eq_ok.1 h5
      obtain ⟨c1, k3, _⟩ := Res.bind_eq_ok.1 h5
      have e1 := Chk.ok (setup32_chk _) k1
      injection e1 with e1
      subst e1
      have hn : (Range.setup M).numDims = M.length := rfl
      simp only [Range.setup_dims, hn] at k2
      have e2 := Chk.ok (expandLoop32_chk _ _ _) k2
      rw [expandLoop_spec g M.length (Range.setup M) (Range.setup_wf M) (by simp)] at e2
      simp only [Range.setup_dims, List.take_length, List.drop_length, List.append_nil] at e2
      injection e2 with e2
      subst e2
      exact resizeBase32_inv k3
    intro d hd
    have h6 := len_le_volume (pos_append.2 ⟨pos_grow hg hM, hD⟩) d (List.mem_append_right _ hd)
    have h7 : d.1 = 0 := by
      simp only [dataBox, List.mem_cons, List.not_mem_nil, or_false] at hd
      rcases hd with rfl | rfl <;> rfl
    rw [h7] at h6 ⊢
    omega
  · exfalso
    apply hv
    rw [← e4, Range.setup_dims, Range.volume_setup hne]
    exact boxVolume_pos hM

/-! ### The kernels -/

theorem steps32_ok {imin imax : Int} {n : Nat} (h : ∀ i ∈ FV.steps imin imax n, -2147483648 ≤ i + n ∧ i + n ≤ 2147483647) :
    FV.steps32 imin imax n = .ok (FV.steps imin imax n) := by
  unfold FV.steps32
  generalize FV.steps imin imax n = l at h ⊢
  induction l with
  | nil => rfl
  | cons i l ih =>
    have h1 := h i List.mem_cons_self
    rw [List.mapM_cons, i32_ok h1.1 h1.2, ih fun j hj => h j (List.mem_cons_of_mem _ hj)]
    rfl

/-- The checked loop counters of the parallel kernels are the unchecked ones: the first elements of the cells between the first
and the last interior one. -/
theorem countersMp32_ok {α : Type} [Arith α] {q : Chunk α} {g : Int} {M : Box} {p n : Nat}
    (hl : q.Layout g M [(0, (p : Int)), (0, (n : Int))]) (hg : 0 ≤ g) (hM : Pos M) (hp : 1 ≤ p) (hn : 2 ≤ n)
    (h : Fits32 (grow g M ++ [(0, (p : Int)), (0, (n : Int))])) :
    FV.countersMp32 n q = (do
      let r ← q.internal.copy.set (q.internal.copy.numDims - 1) 0 1
      let b ← FV.bounds q r
      return FV.steps b.1 b.2 n) ∧
    ∃ is, FV.countersMp32 n q = .ok is ∧ ∀ i ∈ is, 0 ≤ i ∧ i + n ≤ boxVolume (grow g M ++ [(0, (p : Int)), (0, (n : Int))]) := by
  set G : Box := grow g M ++ [(0, (p : Int))] with hG
  set B : Box := M ++ [(0, (p : Int))] with hB
  have hp' : (0 : Int) < p := by exact_mod_cast hp
  have hn' : (0 : Int) < n := by exact_mod_cast (by omega : 0 < n)
  have hr : q.arr.rng = Range.setup (G ++ [(0, (n : Int))]) := by rw [hl.arr_range, hG]; simp
  have hi : q.internal = Range.setup (B ++ [(0, (n : Int))]) := by rw [hl.internal, hB]; simp
  have hf : Fits32 (G ++ [(0, (n : Int))]) := by rw [hG]; simpa using h
  have hw : Range.Within G B := within_append (within_grow hg M) (fits_within_refl _)
  have hpB : Pos B := pos_append.2 ⟨hM, by intro d hd; simp at hd; subst hd; exact hp'⟩
  have hpG : Pos G := pos_append.2 ⟨pos_grow hg hM, by intro d hd; simp at hd; subst hd; exact hp'⟩
  have hpn : Pos [((0 : Int), (n : Int))] := by intro d hd; simp at hd; subst hd; exact hn'
  have hfi : Fits32 (B ++ [(0, (n : Int))]) := hf.within (within_append hw (fits_within_refl _)) (pos_append.2 ⟨hpB, hpn⟩)
  have hw1 : Range.Within (G ++ [(0, (n : Int))]) (B ++ [((0 : Int), (1 : Int))]) :=
    within_append hw (.cons ⟨by simp, by simp; omega⟩ .nil)
  have hp1 : Pos (B ++ [((0 : Int), (1 : Int))]) :=
    pos_append.2 ⟨hpB, by intro d hd; simp at hd; subst hd; decide⟩
  have hf1 : Fits32 (B ++ [((0 : Int), (1 : Int))]) := hf.within hw1 hp1
  have hnd : ((Range.setup (B ++ [(0, (n : Int))])).numDims : Int) - 1 = (B.length : Nat) := by simp [Range.numDims]
  have hset : (B ++ [((0 : Int), (n : Int))]).set B.length (0, 1) = B ++ [(0, 1)] := by simp
  have hlen : B.length < (B ++ [((0 : Int), (n : Int))]).length := by simp
  have e1 : q.internal.copy.set (q.internal.copy.numDims - 1) 0 1 = .ok (Range.setup (B ++ [(0, 1)])) := by
    rw [hi, Range.copy_setup, hnd, Range.set_ok (r := Range.setup _) hlen, Range.setup_dims, hset]
  have e2 : (Range.setup (B ++ [(0, (n : Int))])).set32 (((Range.setup (B ++ [(0, (n : Int))])).numDims : Int) - 1) 0 1 =
      .ok (Range.setup (B ++ [(0, 1)])) := by
    rw [hnd, Range.set32, vset_nat (by simpa using hlen), Res.ok_bind, Range.setup_dims, hset]
    exact setup32_ok hf1
  have hne : G ++ [((0 : Int), (n : Int))] ≠ [] := by simp
  have hb := FV.bounds_eq (q := q) (n := n) hr hw hpB (by omega)
  have hvol : boxVolume (G ++ [(0, (n : Int))]) = n * boxVolume G := by
    rw [boxVolume_append, mul_comm]; simp [boxVolume, lengths]
  obtain ⟨k1, k2⟩ := FV.pos_corner hpB
  have o1 := offset_le hpG (hw.mem k1)
  have o2 := offset_le hpG (hw.mem k2)
  have hmx := hf.volume.2
  have e3 : FV.bounds32 q (Range.setup (B ++ [(0, 1)])) = FV.bounds q (Range.setup (B ++ [(0, 1)])) := by
    have hu := hb
    unfold FV.bounds IFace.indexer at hu
    unfold FV.bounds32 FV.bounds IFace.indexer
    simp only [hr] at hu ⊢
    rw [make32_ok hf hw1 hp1, Res.ok_bind, finalLinear32_ok hf hne hw1 hp1]
    cases hfl : (Indexer.make (Range.setup (B ++ [(0, 1)])) (Range.setup (G ++ [(0, (n : Int))]))).finalLinear with
    | ok f =>
      rw [hfl] at hu
      simp only [Res.ok_bind] at hu ⊢
      injection hu with hu
      have hu2 := congrArg Prod.snd hu
      simp only at hu2
      rw [hu2, i32_ok (by nlinarith) (by nlinarith)]
      rfl
    | throw m => rw [hfl] at hu; cases hu
    | ub w => rw [hfl] at hu; cases hu
    | diverge => rw [hfl] at hu; cases hu
  have hst : ∀ i ∈ FV.steps (n * offset G (B.map Prod.fst)) (n * offset G (B.map fun d => d.2 - 1) + 2) n,
      0 ≤ i ∧ i + n ≤ n * boxVolume G := by
    intro i hi
    unfold FV.steps at hi
    obtain ⟨k, hk, rfl⟩ := List.mem_map.1 hi
    rw [List.mem_range] at hk
    have hk' : (k : Int) < (n * offset G (B.map fun d => d.2 - 1) + 2 - n * offset G (B.map Prod.fst) + n - 1) / n := by omega
    have hk2 : (k : Int) + 1 ≤ (n * offset G (B.map fun d => d.2 - 1) + 2 - n * offset G (B.map Prod.fst) + n - 1) / n := by omega
    rw [Int.le_ediv_iff_mul_le hn'] at hk2
    have hn2 : (2 : Int) ≤ n := by exact_mod_cast hn
    have hk3 : (k : Int) ≤ offset G (B.map fun d => d.2 - 1) - offset G (B.map Prod.fst) := by
      by_contra hcon
      have : offset G (B.map fun d => d.2 - 1) - offset G (B.map Prod.fst) + 1 ≤ k := by omega
      nlinarith
    refine ⟨by nlinarith [o1.1, Int.natCast_nonneg k], ?_⟩
    nlinarith [o2.2]
  have main : FV.countersMp32 n q = .ok (FV.steps (n * offset G (B.map Prod.fst)) (n * offset G (B.map fun d => d.2 - 1) + 2) n) := by
    unfold FV.countersMp32
    rw [hi, copy32_ok hfi, Res.ok_bind, e2, Res.ok_bind, e3, hb, Res.ok_bind]
    exact steps32_ok fun i hi => by have := hst i hi; rw [hvol] at hmx; omega
  refine ⟨?_, _, main, ?_⟩
  · rw [main, e1, Res.ok_bind, hb]; rfl
  · intro i hi
    have := hst i hi
    rw [hG] at hvol
    simp only [List.append_assoc, List.cons_append, List.nil_append] at hvol
    rw [hvol]
    exact this

/-- The checked indices of one direction of the advection solver are the unchecked ones, and lie in the array. -/
theorem advCounters32_ok {α : Type} {a : Chunk α} {b : Box} (hr : a.arr.rng = Range.setup b) (h : Fits32 b) (hp : Pos b) {dim : Nat}
    (hd : dim < b.length) (h2 : 2 ≤ (b[dim]).2 - (b[dim]).1) (up : Bool) :
    ∃ s : Int, vget a.arr.rng.stride dim = .ok s ∧
      Advection.counters32 a dim up = .ok ((Advection.indices (if up then 2 * s else 0)
        (if up then a.arr.rng.volume - 1 else a.arr.rng.volume - 2 * s)).map
        fun i => (i, i - (if up then s else -s), i - 2 * (if up then s else -s))) := by
  have hne : b ≠ [] := List.ne_nil_of_length_pos (by omega)
  obtain ⟨k1, k2⟩ := stride_bounds hp hd
  have hs : vget a.arr.rng.stride dim = .ok ((Range.strideLoop b)[dim]'(by simpa using hd)) := by
    rw [hr]
    refine vget_of_getElem? ?_
    rw [Range.setup_stride, List.getElem?_eq_getElem]
  generalize (Range.strideLoop b)[dim]'(by simpa using hd) = s at k1 k2 hs
  have hv := h.volume
  have hvol : a.arr.rng.volume = boxVolume b := by rw [hr, Range.volume_setup hne]
  have hv32 : a.arr.rng.volume32 = .ok a.arr.rng.volume := by rw [hr]; exact volume32_ok h
  generalize boxVolume b = V at hv hvol k2
  have h2s : 2 * s ≤ V := by nlinarith
  refine ⟨s, hs, ?_⟩
  have hsteps : ∀ x y : Int, FV.steps x y 1 = Advection.indices x y := by
    intro x y
    unfold FV.steps Advection.indices
    have : ((y - x + (1 : Nat) - 1) / (1 : Nat) : Int) = y - x := by simp
    rw [this]
    exact List.map_congr_left fun k _ => by simp
  have hmem : ∀ x y i : Int, i ∈ Advection.indices x y → x ≤ i ∧ i < y := by
    intro x y i hi
    obtain ⟨k, hk, rfl⟩ := List.mem_map.1 hi
    rw [List.mem_range] at hk
    omega
  have hmap : ∀ (l : List Int) (ds : Int), -2147483648 ≤ 2 * ds → 2 * ds ≤ 2147483647 →
      (∀ i ∈ l, 0 ≤ i ∧ i < V ∧ 0 ≤ i - ds ∧ i - ds ≤ V ∧ 0 ≤ i - 2 * ds ∧ i - 2 * ds ≤ V) →
      l.mapM (fun i => (do
        let x ← i32 (i - ds)
        let d2 ← i32 (2 * ds)
        let y ← i32 (i - d2)
        return (i, x, y) : Res (Int × Int × Int))) = .ok (l.map fun i => (i, i - ds, i - 2 * ds)) := by
    intro l ds e1 e2
    induction l with
    | nil => intro _; rfl
    | cons i l ih =>
      intro hl
      have h1 := hl i List.mem_cons_self
      have h3 := ih fun j hj => hl j (List.mem_cons_of_mem _ hj)
      rw [List.mapM_cons, h3, i32_ok (x := i - ds) (by omega) (by omega), Res.ok_bind, i32_ok e1 e2, Res.ok_bind,
        i32_ok (x := i - 2 * ds) (by omega) (by omega)]
      rfl
  unfold Advection.counters32
  rw [hs, Res.ok_bind, hv32, Res.ok_bind, i32_ok (by omega) (by omega), Res.ok_bind, hvol]
  cases up with
  | true =>
    simp only [if_true, Res.ok_bind]
    rw [i32_ok (by omega) (by omega), Res.ok_bind, steps32_ok, Res.ok_bind, hsteps]
    · exact hmap _ s (by omega) (by omega) fun i hi => by have := hmem _ _ i hi; omega
    · intro i hi
      rw [hsteps] at hi
      have := hmem _ _ i hi
      push_cast
      omega
  | false =>
    simp only [Bool.false_eq_true, if_false]
    rw [i32_ok (by omega) (by omega), Res.ok_bind, i32_ok (by omega) (by omega), Res.ok_bind, steps32_ok, Res.ok_bind, hsteps]
    · exact hmap _ (-s) (by omega) (by omega) fun i hi => by have := hmem _ _ i hi; omega
    · intro i hi
      rw [hsteps] at hi
      have := hmem _ _ i hi
      push_cast
      omega

/-- The VTK writer's index of component `k` of the cell `x`. -/
theorem vtkIndex32_ok {D : Box} {k : Int} (hDk : 0 ≤ k) : ∀ {G : Box} {x : Cell}, Fits32 (G ++ D) → Pos (G ++ D) → InBox G x →
    k < boxVolume D → Vtk.index32 k x (G ++ D) (Range.strideLoop (G ++ D)) = .ok (offset G x * boxVolume D + k) ∧
    0 ≤ offset G x * boxVolume D + k ∧ offset G x * boxVolume D + k < boxVolume (G ++ D) := by
  intro G
  induction G with
  | nil =>
    intro x _ _ hx hk
    cases hx
    refine ⟨?_, ?_, ?_⟩
    · simp [Vtk.index32, offset, offsetFrom]
    · simp [offset, offsetFrom]; exact hDk
    · simp [offset, offsetFrom]; exact hk
  | cons d G ih =>
    intro x hf hp hx hk
    cases hx with
    | cons hd ht =>
      rename_i y ys
      obtain ⟨i1, i2, i3⟩ := ih (x := ys) hf.tail hp.tail ht hk
      have hl := InBox.length_eq ht
      have hV := boxVolume_pos hp.tail
      have hmx := hf.volume.2
      have hlen := hf.len
      rw [List.cons_append] at hmx ⊢
      rw [boxVolume_cons] at hmx ⊢
      rw [offset_cons hl]
      have hGD := boxVolume_append G D
      have hb : (y - d.1 + 1) * boxVolume (G ++ D) ≤ (d.2 - d.1) * boxVolume (G ++ D) :=
        mul_le_mul_of_nonneg_right (by omega) (by omega)
      have hb0 : 0 ≤ (y - d.1) * boxVolume (G ++ D) := mul_nonneg (by omega) (by omega)
      have e : ((y - d.1) * boxVolume G + offset G ys) * boxVolume D + k =
          (offset G ys * boxVolume D + k) + (y - d.1) * boxVolume (G ++ D) := by rw [hGD]; ring
      rw [e]
      have hb' : (y - d.1 + 1) * boxVolume (G ++ D) = (y - d.1) * boxVolume (G ++ D) + boxVolume (G ++ D) := by ring
      refine ⟨?_, by omega, by omega⟩
      rw [Range.strideLoop_cons, Vtk.index32, i1, Res.ok_bind, i32_ok (by omega) (by omega), Res.ok_bind,
        i32_ok (by omega) (by omega), Res.ok_bind, i32_ok (by omega) (by omega)]

end QK
