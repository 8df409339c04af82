import Verif.Model.Grid
import Verif.Model.ArithReal
import Verif.Proofs.Range
import Mathlib.Tactic.FieldSimp
import Mathlib.Tactic.Positivity
import Mathlib.Tactic.Linarith
/- Lemmas about the grids. -/
namespace QK
open Spec

theorem mapM_range_ok {β : Type} {n : Nat} {f : Nat → Res β} {l : List β} (h : (List.range n).mapM f = .ok l) :
    l.length = n ∧ ∀ i, i < n → ∃ b, f i = .ok b ∧ l[i]? = some b := by
  have key : ∀ (L : List Nat) (l : List β), L.mapM f = .ok l → l.length = L.length ∧
      ∀ (i a : Nat), L[i]? = some a → ∃ b, f a = .ok b ∧ l[i]? = some b := by
    intro L
    induction L with
    | nil =>
      intro l h
      rw [List.mapM_nil] at h; cases h
      exact ⟨rfl, fun i a h => by simp at h⟩
    | cons x L ih =>
      intro l h
      rw [List.mapM_cons] at h
      obtain ⟨b, hb, h⟩ := Res.bind_eq_ok.1 h
      obtain ⟨l', hl', h⟩ := Res.bind_eq_ok.1 h
      cases h
      obtain ⟨h1, h2⟩ := ih l' hl'
      refine ⟨by simp [h1], ?_⟩
      intro i a hi
      cases i with
      | zero => simp at hi; subst hi; exact ⟨b, hb, rfl⟩
      | succ i => simpa using h2 i a (by simpa using hi)
  obtain ⟨h1, h2⟩ := key _ _ h
  refine ⟨by simpa using h1, fun i hi => h2 i i (by simp [hi])⟩

theorem mapM_range_total {β : Type} {n : Nat} {f : Nat → Res β} (g : Nat → β) (h : ∀ i, i < n → f i = .ok (g i)) :
    (List.range n).mapM f = .ok ((List.range n).map g) := by
  have key : ∀ (L : List Nat), (∀ i ∈ L, f i = .ok (g i)) → L.mapM f = .ok (L.map g) := by
    intro L
    induction L with
    | nil => intro _; rfl
    | cons x L ih =>
      intro hL
      rw [List.mapM_cons, hL x List.mem_cons_self, Res.ok_bind, ih (fun i hi => hL i (List.mem_cons_of_mem _ hi))]
      rfl
  exact key _ (fun i hi => h i (List.mem_range.1 hi))

namespace Rectilinear
variable {α : Type} [Arith α]

theorem make_ok {range : Range} {s w : List α} (hs : range.dims.length ≤ s.length) (hw : range.dims.length ≤ w.length) :
    ∃ g, make range s w = .ok g := by
  have hr : ∀ l : List α, range.dims.length ≤ l.length → readArray range.copy.numDims l = .ok (l.take range.dims.length) := by
    intro l hl
    unfold readArray
    rw [if_pos (by exact hl)]; rfl
  have h0 : ∃ x : α, True := by
    cases range.dims with
    | nil => exact ⟨Arith.lit 0, trivial⟩
    | cons _ _ => exact ⟨Arith.lit 0, trivial⟩
  unfold make
  simp only
  rw [hr w hw, Res.ok_bind, hr s hs, Res.ok_bind]
  rw [mapM_range_total (g := fun i => ((w.take range.dims.length)[i]?.getD (Arith.lit 0)) /
    Arith.ofInt (((range.dims)[i]?.getD (0,0)).2 - ((range.dims)[i]?.getD (0,0)).1))]
  · exact ⟨_, rfl⟩
  · intro i hi
    have hi' : i < range.dims.length := hi
    rw [vget_nat (by simp; omega), Res.ok_bind]
    unfold Range.length Range.upper Range.lower
    have : range.copy.dims = range.dims := rfl
    rw [this, vget_nat hi']
    simp [List.getElem?_eq_getElem hi', List.getElem?_take, hi', List.getElem?_eq_getElem (show i < w.length by omega)]

theorem make_fields {range : Range} {s w : List α} {g : Rectilinear α} (h : make range s w = .ok g) :
    g.rng = range.copy ∧ g.startxs = s.take range.dims.length ∧ g.widths = w.take range.dims.length ∧
    range.dims.length ≤ s.length ∧ range.dims.length ≤ w.length ∧
    g.dxs.length = range.dims.length ∧
    ∀ (i : Nat) d wi, range.dims[i]? = some d → w[i]? = some wi → g.dxs[i]? = some (wi / Arith.ofInt (d.2 - d.1)) := by
  unfold make at h
  simp only at h
  obtain ⟨w', hw', h⟩ := Res.bind_eq_ok.1 h
  obtain ⟨s', hs', h⟩ := Res.bind_eq_ok.1 h
  obtain ⟨dxs, hd, h⟩ := Res.bind_eq_ok.1 h
  cases h
  have hr : ∀ l l' : List α, readArray range.copy.numDims l = .ok l' → l' = l.take range.dims.length ∧ range.dims.length ≤ l.length := by
    intro l l' h
    unfold readArray at h
    split at h
    · rename_i hle; exact ⟨(Res.ok.inj h).symm, hle⟩
    · cases h
  obtain ⟨ew, lw⟩ := hr _ _ hw'
  obtain ⟨es, ls⟩ := hr _ _ hs'
  obtain ⟨h1, h2⟩ := mapM_range_ok hd
  refine ⟨rfl, es, ew, ls, lw, h1, ?_⟩
  intro i d wi hdi hwi
  have hi : i < range.dims.length := (List.getElem?_eq_some_iff.1 hdi).1
  obtain ⟨b, hb, hg⟩ := h2 i hi
  rw [hg]
  have : vget w' (i : Int) = .ok wi := vget_ok (by rw [ew, List.getElem?_take_of_lt hi, hwi])
  rw [this, Res.ok_bind] at hb
  unfold Range.length Range.upper Range.lower at hb
  have e : vget range.copy.dims (i : Int) = .ok d := vget_ok hdi
  rw [e] at hb
  simp only [Res.map_ok, Res.ok_bind, Res.pure_eq] at hb
  rw [← Res.ok.inj hb]

end Rectilinear

/-! ### Structured grids -/

namespace Structured

/-- Sum of the first `i` entries. -/
noncomputable def prefixSum (l : List ℝ) (i : Nat) : ℝ := (l.take i).sum

theorem xcsLoop_spec : ∀ (ds : List ℝ) (pxc pd : ℝ) (i : Nat), i < ds.length →
    (xcsLoop pxc pd ds)[i]? = some (pxc + pd / 2 + prefixSum ds i + (ds.getD i 0) / 2) := by
  intro ds
  induction ds with
  | nil => intro _ _ i h; simp at h
  | cons d ds ih =>
    intro pxc pd i h
    rw [xcsLoop]
    simp only [real_lit]
    cases i with
    | zero =>
      simp only [List.getElem?_cons_zero, prefixSum, List.take_zero, List.sum_nil, List.getD_cons_zero]
      push_cast; congr 1; ring
    | succ i =>
      simp only [List.getElem?_cons_succ, List.getD_cons_succ]
      rw [ih _ _ i (by simpa using h)]
      simp only [prefixSum, List.take_succ_cons, List.sum_cons]
      push_cast; congr 1; ring

theorem xcsLoop_length {α : Type} [Arith α] : ∀ (ds : List α) (pxc pd : α), (xcsLoop pxc pd ds).length = ds.length := by
  intro ds
  induction ds with
  | nil => intro _ _; rfl
  | cons d ds ih => intro _ _; rw [xcsLoop]; simp [ih]

/-- The centroids of dimension `d` are the ones of its cell widths. -/
def CentroidsOK (g : Structured ℝ) (d : Nat) : Prop :=
  ∃ s dl xl, g.startxs[d]? = some s ∧ g.dxs[d]? = some dl ∧ g.xcs[d]? = some xl ∧ xl.length = dl.length ∧
    ∀ i, i < dl.length → xl[i]? = some (s + prefixSum dl i + dl.getD i 0 / 2)

theorem recalc_spec {g g' : Structured ℝ} {d : Nat} (h : recalc g d = .ok g') :
    g'.rng = g.rng ∧ g'.startxs = g.startxs ∧ g'.widths = g.widths ∧ g'.dxs = g.dxs ∧
    (∀ e, e ≠ d → g'.xcs[e]? = g.xcs[e]?) ∧ g'.xcs.length = g.xcs.length ∧ g'.CentroidsOK d := by
  unfold recalc at h
  obtain ⟨s, hs, h⟩ := Res.bind_eq_ok.1 h
  obtain ⟨dl, hdl, h⟩ := Res.bind_eq_ok.1 h
  rw [vget_eq_ok_iff] at hs hdl
  cases dl with
  | nil => cases h
  | cons x ds =>
    simp only at h
    obtain ⟨xcs, hx, h⟩ := Res.bind_eq_ok.1 h
    cases h
    unfold vset at hx
    split at hx
    · rename_i hlt
      cases hx
      refine ⟨rfl, rfl, rfl, rfl, ?_, by simp, ?_⟩
      · intro e he
        simp only [Int.toNat_natCast]
        rw [List.getElem?_set_ne (Ne.symm he)]
      · refine ⟨s, x :: ds, (s + Arith.lit (1 / 2) * x) :: xcsLoop (s + Arith.lit (1 / 2) * x) x ds, by simpa using hs.2, by simpa using hdl.2, ?_, ?_, ?_⟩
        · simp only [Int.toNat_natCast]
          rw [List.getElem?_set_self (by omega)]
        · simp [xcsLoop_length]
        · intro i hi
          cases i with
          | zero => simp only [prefixSum, real_lit]; simp; ring
          | succ i =>
            rw [List.getElem?_cons_succ, xcsLoop_spec _ _ _ i (by simpa using hi)]
            simp only [prefixSum, real_lit, List.take_succ_cons, List.sum_cons, List.getD_cons_succ]
            push_cast; congr 1; ring
    · cases hx

theorem recalc_total {g : Structured ℝ} {d : Nat} {s : ℝ} {dl : List ℝ} (hs : g.startxs[d]? = some s) (hd : g.dxs[d]? = some dl)
    (hne : dl ≠ []) (hx : d < g.xcs.length) : ∃ g', recalc g d = .ok g' := by
  unfold recalc
  rw [vget_ok hs, Res.ok_bind, vget_ok hd, Res.ok_bind]
  cases dl with
  | nil => exact absurd rfl hne
  | cons x ds =>
    simp only
    rw [vset_nat hx]
    exact ⟨_, rfl⟩

/-! ### Biased widths -/

/-- `xs[i]` of `bias_array`. -/
noncomputable def biasX (n p : ℝ) (i : Nat) : ℝ := (i / n) ^ (1 / p)

theorem biasLoop_eq {n p : ℝ} (hn : 0 < n) (hp : 0 < p) : ∀ (k i : Nat),
    biasLoop (1 / n) (1 / p) p k (biasX n p i) = (List.range k).map (fun j => biasX n p (i + j + 1) - biasX n p (i + j)) := by
  intro k
  induction k with
  | zero => intro i; rfl
  | succ k ih =>
    intro i
    have step : Arith.pow (Arith.pow (biasX n p i) p + 1 / n) (1 / p) = biasX n p (i + 1) := by
      show ((biasX n p i) ^ p + 1 / n) ^ (1 / p) = _
      unfold biasX
      rw [← Real.rpow_mul (by positivity), one_div_mul_cancel hp.ne', Real.rpow_one]
      push_cast
      rw [add_div]
    rw [biasLoop]
    simp only [step]
    rw [ih (i + 1), List.range_succ_eq_map, List.map_cons, List.map_map]
    congr 1
    apply List.map_congr_left
    intro j _
    simp only [Function.comp]
    congr 2 <;> omega

theorem biasArray_spec {N P : Int} {l : List ℝ} (hP : 1 ≤ P) (h : biasArray N P = .ok l) :
    0 < N ∧ l.length = N.toNat ∧ l = (List.range N.toNat).map (fun j => biasX N P (j + 1) - biasX N P j) ∧ l.sum = 1 := by
  unfold biasArray at h
  split at h
  · cases h
  · rename_i hN
    have hN' : 0 < N := by omega
    have hNr : (0:ℝ) < (N:ℝ) := by exact_mod_cast hN'
    have hPr : (0:ℝ) < (P:ℝ) := by exact_mod_cast (by omega : 0 < P)
    have h := (Res.ok.inj h).symm
    have h0 : biasX N P 0 = 0 := by
      unfold biasX
      rw [Nat.cast_zero, zero_div, Real.zero_rpow]
      positivity
    simp only [real_lit, real_ofInt, Rat.cast_one, Rat.cast_zero] at h
    have h1 := biasLoop_eq hNr hPr N.toNat 0
    rw [h0] at h1
    rw [h1] at h
    simp only [Nat.zero_add] at h
    refine ⟨hN', by rw [h]; simp, h, ?_⟩
    have tel : ∀ k : Nat, ((List.range k).map (fun j => biasX N P (j + 1) - biasX N P j)).sum = biasX N P k - biasX N P 0 := by
      intro k
      induction k with
      | zero => simp
      | succ k ih => rw [List.range_succ, List.map_append, List.sum_append, ih]; simp
    rw [h, tel, h0, sub_zero]
    unfold biasX
    have : ((N.toNat : Nat) : ℝ) = (N : ℝ) := by
      have : ((N.toNat : Int) : ℝ) = (N : ℝ) := by rw [Int.toNat_of_nonneg (by omega)]
      exact_mod_cast this
    rw [this, div_self hNr.ne', Real.one_rpow]

end Structured
end QK

namespace QK.Structured

/-- What holds of every structured grid that can be obtained. -/
structure Inv (g : Structured ℝ) : Prop where
  dxs_len : g.dxs.length = g.rng.dims.length
  xcs_len : g.xcs.length = g.rng.dims.length
  ok : ∀ (d : Nat) r, g.rng.dims[d]? = some r → g.CentroidsOK d ∧ ∃ dl, g.dxs[d]? = some dl ∧ (dl.length : Int) = r.2 - r.1

theorem foldlM_range_succ {σ : Type} {f : σ → Nat → Res σ} {n : Nat} {s : σ} :
    (List.range (n+1)).foldlM f s = ((List.range n).foldlM f s >>= fun s' => f s' n) := by
  rw [List.range_succ, List.foldlM_append]
  congr 1
  funext s'
  rw [List.foldlM_cons]
  simp [List.foldlM_nil]

theorem make_inv {r : Range} {s w : List ℝ} {g : Structured ℝ} (h : make r s w = .ok g) : g.Inv := by
  unfold make at h
  simp only at h
  obtain ⟨w', hw', h⟩ := Res.bind_eq_ok.1 h
  obtain ⟨s', hs', h⟩ := Res.bind_eq_ok.1 h
  have key : ∀ (k : Nat) (g : Structured ℝ), k ≤ r.dims.length →
      (List.range k).foldlM (fun (g : Structured ℝ) (i : Nat) => do
        let wi ← vget w' i
        let n ← r.copy.length i
        if n < 0 then .throw "std::length_error" else
        let dxs ← vset g.dxs i (List.replicate n.toNat (wi / Arith.ofInt n))
        let xcs ← vset g.xcs i (List.replicate n.toNat (Arith.lit 0))
        recalc { g with dxs, xcs } i)
        { rng := r.copy, startxs := s', widths := w', dxs := List.replicate r.copy.numDims [],
          xcs := List.replicate r.copy.numDims [] } = .ok g →
      g.rng = r.copy ∧ g.startxs = s' ∧ g.dxs.length = r.dims.length ∧ g.xcs.length = r.dims.length ∧
      ∀ d, d < k → ∀ q, r.dims[d]? = some q → g.CentroidsOK d ∧ ∃ dl, g.dxs[d]? = some dl ∧ (dl.length : Int) = q.2 - q.1 := by
    intro k
    induction k with
    | zero =>
      intro g _ h
      cases h
      exact ⟨rfl, rfl, by simp [Range.numDims, Range.copy], by simp [Range.numDims, Range.copy], fun d hd => by omega⟩
    | succ k ih =>
      intro g hk h
      rw [foldlM_range_succ] at h
      obtain ⟨g0, h0, h⟩ := Res.bind_eq_ok.1 h
      obtain ⟨i1, i1', i2, i3, i4⟩ := ih g0 (by omega) h0
      obtain ⟨wi, hwi, h⟩ := Res.bind_eq_ok.1 h
      obtain ⟨n, hn, h⟩ := Res.bind_eq_ok.1 h
      split at h
      · cases h
      · rename_i hn0
        obtain ⟨dxs, hdx, h⟩ := Res.bind_eq_ok.1 h
        obtain ⟨xcs, hxc, h⟩ := Res.bind_eq_ok.1 h
        rw [vset_nat (by omega)] at hdx hxc
        have hdx := (Res.ok.inj hdx).symm
        have hxc := (Res.ok.inj hxc).symm
        obtain ⟨r1, r2, _, r3, r4, r5, r6⟩ := recalc_spec h
        simp only at r1 r2 r3 r4 r5
        refine ⟨r1.trans i1, r2.trans i1', by rw [r3, hdx]; simpa using i2, by rw [r5, hxc]; simpa using i3, ?_⟩
        intro d hd q hq
        by_cases e : d = k
        · subst e
          refine ⟨r6, List.replicate n.toNat (wi / Arith.ofInt n), ?_, ?_⟩
          · rw [r3, hdx, List.getElem?_set_self (by omega)]
          · have e1 : vget r.copy.dims (d : Int) = .ok q := vget_ok hq
            unfold Range.length Range.upper Range.lower at hn
            rw [e1] at hn
            have := Res.ok.inj hn
            simp at this ⊢
            omega
        · obtain ⟨⟨s, dl, xl, a1, a2, a3, a4, a5⟩, b⟩ := i4 d (by omega) q hq
          have e1 : g.dxs[d]? = g0.dxs[d]? := by rw [r3, hdx, List.getElem?_set_ne (Ne.symm e)]
          have e2 : g.xcs[d]? = g0.xcs[d]? := by
            rw [r4 d e, hxc, List.getElem?_set_ne (Ne.symm e)]
          refine ⟨⟨s, dl, xl, by rw [r2]; exact a1, by rw [e1]; exact a2, by rw [e2]; exact a3, a4, a5⟩, ?_⟩
          rw [e1]; exact b
  obtain ⟨h1, _, h2, h3, h4⟩ := key r.dims.length g (le_refl _) h
  refine ⟨by rw [h1]; exact h2, by rw [h1]; exact h3, ?_⟩
  intro d q hq
  rw [h1] at hq
  exact h4 d (List.getElem?_eq_some_iff.1 hq).1 q hq

/-- Replacing the widths of one dimension by as many new ones and recomputing the centroids keeps the
invariant. -/
theorem replace_inv {g g' : Structured ℝ} (hI : g.Inv) {dim : Int} {dl : List ℝ} {dxs : List (List ℝ)} {q : Int × Int}
    (hq : vget g.rng.dims dim = .ok q) (hl : (dl.length : Int) = q.2 - q.1) (hs : vset g.dxs dim dl = .ok dxs)
    (hr : recalc { g with dxs } dim = .ok g') :
    g'.Inv ∧ g'.rng = g.rng ∧ g'.dxs = g.dxs.set dim.toNat dl := by
  rw [vget_eq_ok_iff] at hq
  obtain ⟨d, rfl⟩ := Int.eq_ofNat_of_zero_le hq.1
  have hdl : d < g.dxs.length := by
    rw [hI.dxs_len]; exact (List.getElem?_eq_some_iff.1 hq.2).1
  have hs' : vset g.dxs (d : Int) dl = .ok dxs := hs
  rw [vset_nat hdl] at hs'
  have hs := (Res.ok.inj hs').symm
  obtain ⟨r1, r2, _, r3, r4, r5, r6⟩ := recalc_spec (d := d) hr
  simp only at r1 r2 r3 r4 r5
  refine ⟨⟨by rw [r1, r3, hs]; simpa using hI.dxs_len, by rw [r1, r5]; exact hI.xcs_len, ?_⟩, r1, by rw [r3, hs]; rfl⟩
  intro e q' hq'
  rw [r1] at hq'
  obtain ⟨⟨s, dl', xl, a1, a2, a3, a4, a5⟩, b⟩ := hI.ok e q' hq'
  by_cases he : e = d
  · subst he
    refine ⟨r6, dl, ?_, ?_⟩
    · rw [r3, hs, List.getElem?_set_self hdl]
    · have hh : g.rng.dims[(Int.ofNat e).toNat]? = some q := hq.2
      simp only [Int.ofNat_eq_natCast, Int.toNat_natCast] at hh
      rw [hh] at hq'; rw [← Option.some.inj hq']; exact hl
  · have e1 : g'.dxs[e]? = g.dxs[e]? := by rw [r3, hs, List.getElem?_set_ne (Ne.symm he)]
    refine ⟨⟨s, dl', xl, by rw [r2]; exact a1, by rw [e1]; exact a2, by rw [r4 e he]; exact a3, a4, a5⟩, ?_⟩
    rw [e1]; exact b

theorem biasArray_length {α : Type} [Arith α] {N P : Int} {l : List α} (h : biasArray N P = .ok l) : 0 < N ∧ l.length = N.toNat := by
  unfold biasArray at h
  split at h
  · cases h
  · refine ⟨by omega, ?_⟩
    rw [← Res.ok.inj h]
    have : ∀ (n : Nat) (a b c x : α), (biasLoop a b c n x).length = n := by
      intro n
      induction n with
      | zero => intro _ _ _ _; rfl
      | succ n ih => intro _ _ _ _; rw [biasLoop]; simp [ih]
    exact this _ _ _ _ _

theorem length_ok {r : Range} {d n : Int} (h : r.length d = .ok n) : ∃ q, vget r.dims d = .ok q ∧ n = q.2 - q.1 := by
  unfold Range.length Range.upper Range.lower at h
  cases hq : vget r.dims d with
  | ok q => rw [hq] at h; exact ⟨q, rfl, (Res.ok.inj h).symm⟩
  | throw m => rw [hq] at h; cases h
  | ub m => rw [hq] at h; cases h
  | diverge => rw [hq] at h; cases h

theorem biasSymmetric_inv {g g' : Structured ℝ} (hI : g.Inv) {d : Int} {p : ℝ} (h : biasSymmetric g d p = .ok g') :
    g'.Inv ∧ g'.rng = g.rng ∧ ∃ w L N P nd, vget g.widths d = .ok w ∧ Arith.toInt (w / 2) = .ok L ∧
      g.rng.length d = .ok N ∧ N % 2 = 0 ∧ Arith.toInt p = .ok P ∧ biasArray (N / 2) P = .ok nd ∧
      g'.dxs = g.dxs.set d.toNat (nd.map (fun v => (L : ℝ) * v) ++ (nd.map (fun v => (L : ℝ) * v)).reverse) := by
  unfold biasSymmetric at h
  obtain ⟨w, hw, h⟩ := Res.bind_eq_ok.1 h
  obtain ⟨L, hL, h⟩ := Res.bind_eq_ok.1 h
  obtain ⟨N, hN, h⟩ := Res.bind_eq_ok.1 h
  split at h
  · cases h
  · rename_i hodd
    obtain ⟨P, hP, h⟩ := Res.bind_eq_ok.1 h
    obtain ⟨nd, hnd, h⟩ := Res.bind_eq_ok.1 h
    simp only at h
    obtain ⟨dxs, hd, hrec⟩ := Res.bind_eq_ok.1 h
    obtain ⟨q, hq, rfl⟩ := length_ok hN
    obtain ⟨hpos, hlen⟩ := biasArray_length hnd
    have hNpos : 0 ≤ q.2 - q.1 := by
      by_contra hneg
      have : (q.2 - q.1).tdiv 2 ≤ 0 := by
        have := Int.tdiv_nonneg (a := -(q.2 - q.1)) (b := 2) (by omega) (by decide)
        rw [Int.neg_tdiv] at this; omega
      omega
    rw [Int.tdiv_eq_ediv_of_nonneg hNpos] at hnd hpos hlen
    rw [Int.tmod_eq_emod_of_nonneg hNpos] at hodd
    have hl : (((nd.map (fun v => Arith.ofInt L * v)) ++ (nd.map (fun v => Arith.ofInt L * v)).reverse).length : Int) = q.2 - q.1 := by
      simp only [List.length_append, List.length_reverse, List.length_map, hlen]; push_cast
      omega
    obtain ⟨a1, a2, a3⟩ := replace_inv hI hq hl hd hrec
    refine ⟨a1, a2, w, L, _, P, nd, hw, ?_, hN, by omega, hP, hnd, a3⟩
    rw [← hL]; simp only [real_lit]; norm_num

theorem biasLinear_inv {g g' : Structured ℝ} (hI : g.Inv) {d : Int} {p : ℝ} (h : biasLinear g d p = .ok g') :
    g'.Inv ∧ g'.rng = g.rng ∧ ∃ w L N P nd, vget g.widths d = .ok w ∧ Arith.toInt w = .ok L ∧
      g.rng.length d = .ok N ∧ Arith.toInt p = .ok P ∧ biasArray N P = .ok nd ∧
      g'.dxs = g.dxs.set d.toNat (nd.map (fun v => (L : ℝ) * v)).reverse := by
  unfold biasLinear at h
  obtain ⟨w, hw, h⟩ := Res.bind_eq_ok.1 h
  obtain ⟨L, hL, h⟩ := Res.bind_eq_ok.1 h
  obtain ⟨N, hN, h⟩ := Res.bind_eq_ok.1 h
  obtain ⟨P, hP, h⟩ := Res.bind_eq_ok.1 h
  obtain ⟨nd, hnd, h⟩ := Res.bind_eq_ok.1 h
  obtain ⟨dxs, hd, hrec⟩ := Res.bind_eq_ok.1 h
  obtain ⟨q, hq, rfl⟩ := length_ok hN
  obtain ⟨hpos, hlen⟩ := biasArray_length hnd
  have hl : (((nd.map (fun v => Arith.ofInt L * v)).reverse).length : Int) = q.2 - q.1 := by
    simp only [List.length_reverse, List.length_map, hlen]; omega
  obtain ⟨a1, a2, a3⟩ := replace_inv hI hq hl hd hrec
  exact ⟨a1, a2, w, L, _, P, nd, hw, hL, hN, hP, hnd, a3⟩

theorem made_inv {g : Structured ℝ} (h : g.Made) : g.Inv := by
  induction h with
  | make h => exact make_inv h
  | symmetric _ h ih => exact (biasSymmetric_inv ih h).1
  | linear _ h ih => exact (biasLinear_inv ih h).1

end QK.Structured
