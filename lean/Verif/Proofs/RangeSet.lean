import Verif.Proofs.Update
import Verif.Proofs.Chunk
import Verif.Model.RangeSet
import Verif.Spec.RangeSet
import Mathlib.Tactic.Linarith
import Mathlib.Tactic.FieldSimp
import Mathlib.Tactic.Ring
import Mathlib.Algebra.BigOperators.Ring.List
/- Lemmas about `range_set`. -/
namespace QK
open Spec

theorem prod_nonneg' : ∀ {l : List Int}, (∀ a ∈ l, 0 ≤ a) → 0 ≤ l.prod := by
  intro l
  induction l with
  | nil => intro _; simp
  | cons a l ih =>
    intro h
    rw [List.prod_cons]
    exact mul_nonneg (h a List.mem_cons_self) (ih (fun b hb => h b (List.mem_cons_of_mem _ hb)))

theorem size_eq {rnd : ℚ → ℚ} (h : Round32 rnd) {len n : Int} (h0 : 0 ≤ len) (h1 : len < 2 ^ 24) (hn : 0 < n)
    (hn1 : n < 2 ^ 24) : RangeSet.size rnd len n = .ok (ceilDiv len n) := by
  have hnq : (0 : ℚ) < n := by exact_mod_cast hn
  have hlq : (0 : ℚ) ≤ len := by exact_mod_cast h0
  set s := ceilDiv len n with hs
  have hs1 : (s - 1) * n < len ∨ len = s * n := by
    have := Int.emod_add_mul_ediv (len + n - 1) n
    have h2 := Int.emod_nonneg (len + n - 1) (by omega : n ≠ 0)
    have h3 := Int.emod_lt_of_pos (len + n - 1) hn
    have e : s = (len + n - 1) / n := rfl
    rw [← e] at this
    left
    nlinarith
  have hs2 : len ≤ s * n := by
    have := Int.emod_add_mul_ediv (len + n - 1) n
    have h3 := Int.emod_lt_of_pos (len + n - 1) hn
    have e : s = (len + n - 1) / n := rfl
    rw [← e] at this
    nlinarith
  have hs0 : 0 ≤ s := by
    have : s = (len + n - 1) / n := rfl
    rw [this]
    exact Int.ediv_nonneg (by omega) (by omega)
  suffices key : ⌈rnd (rnd len / rnd n)⌉ = s by
    have : s ≤ len := by
      rcases hs1 with h | h <;> nlinarith
    unfold RangeSet.size
    rw [if_neg (by omega), key, if_pos ⟨by omega, by omega⟩]
  rw [h.exact len (by rw [abs_of_nonneg h0]; omega), h.exact n (by rw [abs_of_pos hn]; omega)]
  by_cases heq : len = s * n
  · -- the quotient is an integer
    have e : (len : ℚ) / n = ((s : ℤ) : ℚ) := by
      rw [div_eq_iff (ne_of_gt hnq)]; exact_mod_cast heq
    rw [e, h.exact s (by rw [abs_of_nonneg hs0]; nlinarith)]
    exact Int.ceil_intCast s
  · have hlt : (s - 1) * n + 1 ≤ len := by
      rcases hs1 with h | h
      · omega
      · exact absurd h heq
    have hlt2 : len + 1 ≤ s * n := by omega
    have hl1 : (1 : ℚ) ≤ len := by
      have : 1 ≤ len := by
        by_contra c
        have l0 : len = 0 := by omega
        rw [l0] at hlt hlt2
        have s1 : 1 ≤ s := by
          by_contra c
          have : s = 0 := by omega
          rw [this] at hlt2; omega
        nlinarith
      exact_mod_cast this
    have hn1q : (n : ℚ) < 2 ^ 24 := by exact_mod_cast hn1
    have hlq1 : (len : ℚ) < 2 ^ 24 := by exact_mod_cast h1
    have hnq1 : (1 : ℚ) ≤ n := by exact_mod_cast hn
    have herr := h.err ((len : ℚ) / n) (by
      rw [div_le_div_iff₀ (by positivity) hnq]
      have : (2 : ℚ) ^ 24 ≤ 2 ^ 126 := by norm_num
      nlinarith) (by
      rw [div_lt_iff₀ hnq]
      have : (2 : ℚ) ^ 24 ≤ 2 ^ 127 := by norm_num
      nlinarith)
    have hb := abs_le.1 herr
    have hq : (len : ℚ) / n / 2 ^ 24 < 1 / n := by
      rw [div_div, div_lt_div_iff₀ (by positivity) hnq]
      have : (len : ℚ) < 2 ^ 24 := by exact_mod_cast h1
      nlinarith
    have hq1 : ((s : ℚ) - 1) + 1 / n ≤ (len : ℚ) / n := by
      rw [le_div_iff₀ hnq, add_mul, div_mul_cancel₀ _ (ne_of_gt hnq)]
      exact_mod_cast hlt
    have hq2 : (len : ℚ) / n + 1 / n ≤ s := by
      rw [← add_div, div_le_iff₀ hnq]
      exact_mod_cast hlt2
    rw [Int.ceil_eq_iff]
    constructor
    · linarith [hb.1]
    · linarith [hb.2]

/-- The sub-range boxes: dimension by dimension the `k`-th stretch of `⌈len/n⌉` cells. -/
def tiles (B : Box) (subs : List Int) (k : Cell) : Box :=
  RangeSet.bounds B ((B.zip subs).map (fun p => ceilDiv (p.1.2 - p.1.1) p.2)) k

theorem sizes_eq {rnd : ℚ → ℚ} (h : Round32 rnd) : ∀ {B : Box} {subs : List Int}, Small B subs →
    RangeSet.sizes rnd B subs = .ok ((B.zip subs).map (fun p => ceilDiv (p.1.2 - p.1.1) p.2)) := by
  intro B subs hs
  induction hs with
  | nil => rfl
  | @cons d n B subs h1 h2 ih =>
    unfold RangeSet.sizes at *
    rw [List.zip_cons_cons, List.mapM_cons, size_eq h (by omega) h1.2.1 h1.2.2.1 h1.2.2.2, Res.ok_bind, ih]
    rfl

theorem setup_sizes {rnd : ℚ → ℚ} (f : IFace Range) {sup : Range} {subs ss : List Int} (hd : 0 < sup.numDims) (hlen : subs.length = sup.dims.length) (hp : ∀ n ∈ subs, 0 < n)
    (hss : RangeSet.sizes rnd sup.dims subs = .ok ss) :
    ∃ g, RangeSet.setup rnd f sup subs = .ok g ∧ g.WF ∧ g.rng.dims = subs.map (fun n => (0, n)) ∧
      ∀ k, InBox (subs.map (fun n => (0, n))) k → g.val k = some (Range.setup (RangeSet.bounds sup.dims ss k)) := by
  have hne : sup.dims ≠ [] := by intro e; simp [Range.numDims, e] at hd
  have hsne : subs.map (fun n => ((0:Int), n)) ≠ [] := by
    intro e
    have : subs.length = 0 := by simpa using congrArg List.length e
    rw [hlen] at this
    exact hne (List.length_eq_zero_iff.1 this)
  have hpos : Pos (subs.map (fun n => ((0:Int), n))) := by
    intro d hdm
    obtain ⟨n, hn, rfl⟩ := List.mem_map.1 hdm
    exact hp n hn
  have hr : ∃ f', f.resize Range.empty (Range.setup (subs.map (fun n => ((0:Int), n)))) = .ok f' := by
    have hv : IFace.vresize Range.empty f.data (Range.setup (subs.map (fun n => ((0:Int), n)))).copy.volume =
        .ok (f.data.take _ ++ List.replicate _ _) := if_neg (by
      have := setup_volume_nonneg hpos; rw [Range.copy_setup]; omega)
    unfold IFace.resize
    simp only []
    rw [hv]
    exact ⟨_, rfl⟩
  obtain ⟨f', hf'⟩ := hr
  obtain ⟨hwf, hrng⟩ := IFace.resize_spec hf'
  have hrd : f'.rng.dims = subs.map (fun n => ((0:Int), n)) := by rw [hrng]; rfl
  obtain ⟨g, g1, g2, g3, g4⟩ := IFace.forEach_update hwf (sub := f'.rng) (by rw [hrd]; exact hsne)
    (Range.Within.refl _) (by rw [hrd]; exact hpos)
    (fun c _ => Range.setup (RangeSet.bounds sup.dims ss c))
    (body := fun i f => f.put i (Range.setup (RangeSet.bounds sup.dims ss i.index)))
    (fun g c v h1 h2 h3 h4 => by
      rw [← h2] at h3 ⊢
      exact IFace.put_onCell h1 (by rw [h2, hrd]; exact hsne) h3 _ _)
  refine ⟨g, ?_, g2, by rw [g3, hrd], ?_⟩
  · unfold RangeSet.setup
    simp only [Range.copy_dims]
    have hnd : sup.copy.numDims = sup.dims.length := rfl
    rw [if_neg (by rw [hnd]; omega), hnd, ← hlen, List.take_length, hf', Res.ok_bind, hss, Res.ok_bind]
    exact g1
  · intro k hk
    rw [g4 k (by rw [hrd]; exact hk), if_pos (by rw [hrd]; exact hk)]
    obtain ⟨v, hv⟩ := IFace.val_isSome hwf (by rw [hrd]; exact hsne) (c := k) (by rw [hrd]; exact hk)
    rw [hv]; rfl

theorem small_pos : ∀ {B : Box} {subs : List Int}, Small B subs → ∀ n ∈ subs, 0 < n := by
  intro B subs hs
  induction hs with
  | nil => simp
  | cons h1 _ ih => intro n hn; rcases List.mem_cons.1 hn with rfl | hn
                    · exact h1.2.2.1
                    · exact ih n hn

theorem setup_spec {rnd : ℚ → ℚ} (h : Round32 rnd) (f : IFace Range) {sup : Range} {subs : List Int}
    (hd : 0 < sup.numDims) (hs : Small sup.dims subs) :
    ∃ g, RangeSet.setup rnd f sup subs = .ok g ∧ g.WF ∧ g.rng.dims = subs.map (fun n => (0, n)) ∧
      ∀ k, InBox (subs.map (fun n => (0, n))) k → g.val k = some (Range.setup (tiles sup.dims subs k)) :=
  setup_sizes f hd hs.length_eq.symm (small_pos hs) (sizes_eq h hs)

/-! ### One dimension -/

theorem ceilDiv_spec {len n : Int} (h0 : 0 ≤ len) (hn : 0 < n) :
    len ≤ n * ceilDiv len n ∧ 0 ≤ ceilDiv len n ∧ (0 < len → 0 < ceilDiv len n) := by
  have h1 := Int.emod_add_mul_ediv (len + n - 1) n
  have h2 := Int.emod_nonneg (len + n - 1) (by omega : n ≠ 0)
  have h3 := Int.emod_lt_of_pos (len + n - 1) hn
  unfold ceilDiv
  refine ⟨by nlinarith, Int.ediv_nonneg (by omega) (by omega), ?_⟩
  intro hl
  have := Int.le_ediv_of_mul_le (a := 1) (b := len + n - 1) hn (by omega)
  omega

theorem mem_tiles : ∀ {B : Box} {subs : List Int}, Small B subs → ∀ {x : Cell}, InBox B x →
    ∃ k, InBox (subs.map (fun n => ((0:Int), n))) k ∧ InBox (tiles B subs k) x := by
  intro B subs hs
  induction hs with
  | nil => intro x hx; cases hx; exact ⟨[], .nil, .nil⟩
  | @cons d n B subs h1 h2 ih =>
    intro x hx
    cases hx with
    | @cons _ y _ ys hy hys =>
      obtain ⟨k, hk1, hk2⟩ := ih hys
      obtain ⟨c1, c2, c3⟩ := ceilDiv_spec (len := d.2 - d.1) (n := n) (by omega) h1.2.2.1
      have cs := c3 (by omega)
      set s := ceilDiv (d.2 - d.1) n
      have e1 := Int.emod_add_mul_ediv (y - d.1) s
      have e2 := Int.emod_nonneg (y - d.1) (by omega : s ≠ 0)
      have e3 := Int.emod_lt_of_pos (y - d.1) cs
      set q := (y - d.1) / s
      have hq0 : 0 ≤ q := Int.ediv_nonneg (by omega) (by omega)
      have hqn : q < n := by
        by_contra hc
        have : n * s ≤ s * q := by nlinarith
        omega
      refine ⟨q :: k, .cons ⟨hq0, hqn⟩ hk1, ?_⟩
      unfold tiles
      rw [List.zip_cons_cons, List.map_cons, RangeSet.bounds]
      refine .cons ⟨?_, ?_⟩ hk2
      · have : q * s = s * q := by ring
        show d.1 + q * s ≤ y
        omega
      · have : q * s = s * q := by ring
        show y < min (d.1 + q * s + s) d.2
        omega

theorem tiles_unique : ∀ {B : Box} {subs : List Int}, Small B subs → ∀ {x : Cell} {k k' : Cell},
    InBox (subs.map (fun n => ((0:Int), n))) k → InBox (subs.map (fun n => ((0:Int), n))) k' →
    InBox (tiles B subs k) x → InBox (tiles B subs k') x → k = k' := by
  intro B subs hs
  induction hs with
  | nil => intro x k k' h1 h2 _ _; cases h1; cases h2; rfl
  | @cons d n B subs h1 h2 ih =>
    intro x k k' hk hk' hx hx'
    cases hk with
    | @cons _ a _ as ha has =>
      cases hk' with
      | @cons _ b _ bs hb hbs =>
        unfold tiles at hx hx'
        rw [List.zip_cons_cons, List.map_cons, RangeSet.bounds] at hx hx'
        cases hx with
        | @cons _ y _ ys hy hys =>
          cases hx' with
          | cons hy' hys' =>
            have : as = bs := ih has hbs hys hys'
            subst this
            simp only at hy hy' ha hb
            have e : a = b := by
              set s := ceilDiv (d.2 - d.1) n
              rcases Int.lt_trichotomy a b with hlt | heq | hgt
              · exfalso
                have hs0 : 0 < s := by omega
                have : a * s + s ≤ b * s := by nlinarith
                omega
              · exact heq
              · exfalso
                have hs0 : 0 < s := by omega
                have : b * s + s ≤ a * s := by nlinarith
                omega
            rw [e]

theorem tiles_sub : ∀ {B : Box} {subs : List Int}, Small B subs → ∀ {x : Cell} {k : Cell},
    InBox (subs.map (fun n => ((0:Int), n))) k → InBox (tiles B subs k) x → InBox B x := by
  intro B subs hs
  induction hs with
  | nil => intro x k h1 h2; cases h1; exact h2
  | @cons d n B subs h1 h2 ih =>
    intro x k hk hx
    cases hk with
    | @cons _ a _ as ha has =>
      unfold tiles at hx
      rw [List.zip_cons_cons, List.map_cons, RangeSet.bounds] at hx
      cases hx with
      | @cons _ y _ ys hy hys =>
        refine .cons ?_ (ih has hys)
        simp only at hy ha
        obtain ⟨_, c2, _⟩ := ceilDiv_spec (len := d.2 - d.1) (n := n) (by omega) h1.2.2.1
        have := mul_nonneg ha.1 c2
        constructor
        · omega
        · omega

theorem tiles_wf : ∀ {B : Box} {subs : List Int}, Small B subs → Fits B subs → ∀ {k : Cell},
    InBox (subs.map (fun n => ((0:Int), n))) k → ∀ d ∈ tiles B subs k, d.1 ≤ d.2 := by
  intro B subs hs
  induction hs with
  | nil => intro _ k hk; cases hk; simp [tiles, RangeSet.bounds]
  | @cons d n B subs h1 h2 ih =>
    intro hf k hk
    cases hf with
    | cons hf1 hf2 =>
      cases hk with
      | @cons _ a _ as ha has =>
        unfold tiles
        rw [List.zip_cons_cons, List.map_cons, RangeSet.bounds]
        intro e he
        rcases List.mem_cons.1 he with rfl | he
        · simp only at ha ⊢
          obtain ⟨_, c2, _⟩ := ceilDiv_spec (len := d.2 - d.1) (n := n) (by omega) h1.2.2.1
          have : a * ceilDiv (d.2 - d.1) n ≤ (n - 1) * ceilDiv (d.2 - d.1) n :=
            mul_le_mul_of_nonneg_right (by omega) c2
          omega
        · exact ih hf2 has e he

theorem sum_pieces (lo hi s : Int) (hs : 0 ≤ s) : ∀ n : Nat, lo + ((n : Int) - 1) * s ≤ hi → hi ≤ lo + n * s → 0 < n →
    (((List.range n).map (fun k : Nat => min (lo + (k : Int) * s + s) hi - (lo + (k : Int) * s))).sum = hi - lo) := by
  intro n h1 h2 hn
  have key : ∀ m : Nat, m < n →
      ((List.range m).map (fun k : Nat => min (lo + (k : Int) * s + s) hi - (lo + (k : Int) * s))).sum = m * s := by
    intro m
    induction m with
    | zero => intro _; simp
    | succ m ih =>
      intro hm
      rw [List.range_succ, List.map_append, List.sum_append, ih (by omega)]
      simp only [List.map_cons, List.map_nil, List.sum_cons, List.sum_nil]
      have : ((m : Int) + 1) * s ≤ ((n : Int) - 1) * s := mul_le_mul_of_nonneg_right (by omega) hs
      have e : ((m : Int) + 1) * s = m * s + s := by ring
      push_cast
      rw [min_eq_left (by omega)]
      ring
  obtain ⟨m, rfl⟩ : ∃ m, n = m + 1 := ⟨n - 1, by omega⟩
  rw [List.range_succ, List.map_append, List.sum_append, key m (by omega)]
  simp only [List.map_cons, List.map_nil, List.sum_cons, List.sum_nil]
  push_cast at h1 h2
  have e : ((m : Int) + 1) * s = m * s + s := by ring
  rw [min_eq_right (by omega)]
  ring

theorem tiles_volume : ∀ {B : Box} {subs : List Int}, Small B subs → Fits B subs →
    ((cells (subs.map (fun n => ((0:Int), n)))).map (fun k => boxVolume (tiles B subs k))).sum = boxVolume B := by
  intro B subs hs
  induction hs with
  | nil => intro _; decide
  | @cons d n B subs h1 h2 ih =>
    intro hf
    cases hf with
    | cons hf1 hf2 =>
      rw [List.map_cons, cells, List.map_flatMap, boxVolume_cons]
      obtain ⟨c1, c2, _⟩ := ceilDiv_spec (len := d.2 - d.1) (n := n) (by omega) h1.2.2.1
      have step : ∀ x : Int, (((cells (subs.map (fun n => ((0:Int), n)))).map (fun c => x :: c)).map
          (fun k => boxVolume (tiles (d :: B) (n :: subs) k))).sum =
          (min (d.1 + x * ceilDiv (d.2 - d.1) n + ceilDiv (d.2 - d.1) n) d.2 - (d.1 + x * ceilDiv (d.2 - d.1) n)) *
            boxVolume B := by
        intro x
        rw [← ih hf2, List.map_map, ← List.sum_map_mul_left]
        rfl
      rw [List.flatMap_def, List.sum_flatten, List.map_map]
      have e : (List.sum ∘ fun x => ((cells (subs.map (fun n => ((0:Int), n)))).map (fun c => x :: c)).map
          (fun k => boxVolume (tiles (d :: B) (n :: subs) k))) = fun x : Int =>
          (min (d.1 + x * ceilDiv (d.2 - d.1) n + ceilDiv (d.2 - d.1) n) d.2 - (d.1 + x * ceilDiv (d.2 - d.1) n)) *
            boxVolume B := by
        funext x; exact step x
      rw [e, List.sum_map_mul_right]
      congr 1
      unfold interval
      rw [List.map_map]
      have hn : ((n - 0).toNat : Int) = n := by omega
      have := sum_pieces d.1 d.2 (ceilDiv (d.2 - d.1) n) c2 (n - 0).toNat (by rw [hn]; omega) (by rw [hn]; omega) (by omega)
      refine Eq.trans ?_ this
      apply congrArg List.sum
      apply List.map_congr_left
      intro k _
      simp only [Function.comp, Int.zero_add]

end QK
