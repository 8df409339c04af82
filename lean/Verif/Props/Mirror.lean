import Verif.Props.Start
import Verif.Proofs.FvReal
/-
C92: left and right, plus and minus. C93: the unit of measurement. What the constant 1e-12 in the reconstruction does (exact arithmetic).
-/
namespace QK.Props
open QK Spec GemChallenge

/-- By how much the reconstruction changes the value of a cell: `a` is the difference to the cell behind, `b` the difference to the cell across the wall, `s` the denominator. -/
private noncomputable def change (a b s : ℝ) : ℝ := 1 / 2 * ((b / s * (b / s) + b / s) / (b / s * (b / s) + 1)) * a

private theorem change_eq {a b s : ℝ} (h : s ≠ 0) : change a b s = a * b * (b + s) / (2 * (b ^ 2 + s ^ 2)) := by
  unfold change
  have h1 : b / s * (b / s) + 1 = (b ^ 2 + s ^ 2) / s ^ 2 := by field_simp
  have h2 : b / s * (b / s) + b / s = (b ^ 2 + b * s) / s ^ 2 := by field_simp
  rw [h1, h2, div_div_div_cancel_right₀ (by positivity)]
  field_simp

private theorem recon_change (qn qc qp qpp : ℝ) : FV.recon qn qc qp qpp =
    (qc + change (qc - qn) (qp - qc) (qc - qn + 1 / 10 ^ 12), qp + change (qp - qpp) (qc - qp) (qp - qpp - 1 / 10 ^ 12)) := by
  simp only [FV.recon, real_lit, change]
  push_cast
  refine Prod.ext ?_ ?_
  · rfl
  · dsimp only
    have e : (qp - qc) / (qpp - qp + 1 / 10 ^ 12) = (qc - qp) / (qp - qpp - 1 / 10 ^ 12) := by
      rw [← neg_div_neg_eq]; congr 1 <;> ring
    rw [e]

private theorem change_diff {a b e : ℝ} (he : 0 < e) (h1 : a + e ≠ 0) (h2 : a - e ≠ 0) : |change a b (a + e) - change a b (a - e)| ≤ 3 / 2 * e := by
  rw [change_eq h1, change_eq h2]
  have p1 : 0 < b ^ 2 + (a + e) ^ 2 := by positivity
  have p2 : 0 < b ^ 2 + (a - e) ^ 2 := by positivity
  have : a * b * (b + (a + e)) / (2 * (b ^ 2 + (a + e) ^ 2)) - a * b * (b + (a - e)) / (2 * (b ^ 2 + (a - e) ^ 2)) =
      e * (a * b * (b ^ 2 - 2 * a * b - (a ^ 2 - e ^ 2))) / ((b ^ 2 + (a + e) ^ 2) * (b ^ 2 + (a - e) ^ 2)) := by
    field_simp
    ring
  rw [this, abs_div, abs_of_pos (mul_pos p1 p2), div_le_iff₀ (mul_pos p1 p2), abs_mul, abs_of_pos he, mul_comm (3 / 2) e, mul_assoc e]
  refine mul_le_mul_of_nonneg_left ?_ he.le
  have ex : (b ^ 2 + (a + e) ^ 2) * (b ^ 2 + (a - e) ^ 2) = b ^ 4 + 2 * a ^ 2 * b ^ 2 + 2 * b ^ 2 * e ^ 2 + (a ^ 2 - e ^ 2) ^ 2 := by ring
  rw [ex]
  generalize a ^ 2 - e ^ 2 = d
  rw [abs_le]
  constructor <;>
    nlinarith [sq_nonneg (a * b + b ^ 2), sq_nonneg (a * b - b ^ 2), sq_nonneg (a * b + d), sq_nonneg (a * b - d), sq_nonneg (b * e), sq_nonneg (b ^ 2), sq_nonneg d, sq_nonneg (a * b)]

private theorem change_ideal {a b e : ℝ} (h : a + e ≠ 0) : |change a b (a + e) - change a b a| ≤ |e| := by
  by_cases ha : a = 0
  · subst ha; simp [change]
  rw [change_eq h, change_eq ha]
  generalize hs : a + e = s at *
  have p1 : 0 < b ^ 2 + s ^ 2 := by positivity
  have p2 : 0 < b ^ 2 + a ^ 2 := by positivity
  have : a * b * (b + s) / (2 * (b ^ 2 + s ^ 2)) - a * b * (b + a) / (2 * (b ^ 2 + a ^ 2)) =
      e * (a * b * (b * (b - s) - a * (b + s))) / (2 * ((b ^ 2 + s ^ 2) * (b ^ 2 + a ^ 2))) := by
    have : e = s - a := by linarith
    subst this
    field_simp
    ring
  rw [this, abs_div, abs_of_pos (mul_pos two_pos (mul_pos p1 p2)), div_le_iff₀ (mul_pos two_pos (mul_pos p1 p2)), abs_mul]
  refine mul_le_mul_of_nonneg_left ?_ (abs_nonneg e)
  refine abs_le_of_sq_le_sq ?_ (by positivity)
  have cs : (b * (b - s) - a * (b + s)) ^ 2 ≤ 2 * ((b ^ 2 + s ^ 2) * (b ^ 2 + a ^ 2)) := by nlinarith [sq_nonneg (a * (b - s) + b * (b + s))]
  have ab : (a * b) ^ 2 ≤ (b ^ 2 + s ^ 2) * (b ^ 2 + a ^ 2) := by nlinarith [sq_nonneg (b * b), sq_nonneg (b * s), sq_nonneg (a * s)]
  have pp := mul_pos p1 p2
  calc (a * b * (b * (b - s) - a * (b + s))) ^ 2 = (a * b) ^ 2 * (b * (b - s) - a * (b + s)) ^ 2 := by ring
    _ ≤ ((b ^ 2 + s ^ 2) * (b ^ 2 + a ^ 2)) * (2 * ((b ^ 2 + s ^ 2) * (b ^ 2 + a ^ 2))) := mul_le_mul ab cs (sq_nonneg _) pp.le
    _ ≤ (2 * ((b ^ 2 + s ^ 2) * (b ^ 2 + a ^ 2))) ^ 2 := by nlinarith

/-! ## C92 -/

/-- **C92** (false of the code) The reconstruction does not treat left and right alike, nor positive and negative values: on linear data the mirrored values do not give the
mirrored states, and the negated values do not give the negated states. -/
theorem C92_false : (FV.recon (3 : ℝ) 2 1 0).1 ≠ (FV.recon (0 : ℝ) 1 2 3).2 ∧ (FV.recon (-0 : ℝ) (-1) (-2) (-3)).1 ≠ -(FV.recon (0 : ℝ) 1 2 3).1 := by
  constructor <;>
  · simp only [FV.recon, real_lit]
    norm_num

/-- **C92**, what holds: the states of the mirrored and of the negated values are the mirrored and the negated states up to 2e-12, unless a denominator is zero. -/
theorem C92_partial {qn qc qp qpp : ℝ} (h1 : qc - qn + 1 / 10 ^ 12 ≠ 0) (h2 : qc - qn - 1 / 10 ^ 12 ≠ 0) (h3 : qpp - qp + 1 / 10 ^ 12 ≠ 0) (h4 : qpp - qp - 1 / 10 ^ 12 ≠ 0) :
    |(FV.recon qpp qp qc qn).1 - (FV.recon qn qc qp qpp).2| ≤ 2 / 10 ^ 12 ∧ |(FV.recon qpp qp qc qn).2 - (FV.recon qn qc qp qpp).1| ≤ 2 / 10 ^ 12 ∧
    |(FV.recon (-qn) (-qc) (-qp) (-qpp)).1 + (FV.recon qn qc qp qpp).1| ≤ 2 / 10 ^ 12 ∧ |(FV.recon (-qn) (-qc) (-qp) (-qpp)).2 + (FV.recon qn qc qp qpp).2| ≤ 2 / 10 ^ 12 := by
  have he : (0 : ℝ) < 1 / 10 ^ 12 := by positivity
  have odd : ∀ a b s : ℝ, change (-a) (-b) (-s) = -change a b s := by
    intro a b s; unfold change; rw [neg_div_neg_eq]; ring
  have A := change_diff (a := qc - qn) (b := qp - qc) he h1 h2
  have B := change_diff (a := qp - qpp) (b := qc - qp) he (by intro h; apply h4; linarith) (by intro h; apply h3; linarith)
  have le : (3 : ℝ) / 2 * (1 / 10 ^ 12) ≤ 2 / 10 ^ 12 := by norm_num
  simp only [recon_change]
  refine ⟨?_, ?_, ?_, ?_⟩
  · rw [show qp + change (qp - qpp) (qc - qp) (qp - qpp + 1 / 10 ^ 12) - (qp + change (qp - qpp) (qc - qp) (qp - qpp - 1 / 10 ^ 12)) =
      change (qp - qpp) (qc - qp) (qp - qpp + 1 / 10 ^ 12) - change (qp - qpp) (qc - qp) (qp - qpp - 1 / 10 ^ 12) by ring]
    exact B.trans le
  · rw [show qc + change (qc - qn) (qp - qc) (qc - qn - 1 / 10 ^ 12) - (qc + change (qc - qn) (qp - qc) (qc - qn + 1 / 10 ^ 12)) =
      -(change (qc - qn) (qp - qc) (qc - qn + 1 / 10 ^ 12) - change (qc - qn) (qp - qc) (qc - qn - 1 / 10 ^ 12)) by ring, abs_neg]
    exact A.trans le
  · have := odd (qc - qn) (qp - qc) (qc - qn - 1 / 10 ^ 12)
    rw [show -qc - -qn = -(qc - qn) by ring, show -qp - -qc = -(qp - qc) by ring, show -(qc - qn) + 1 / 10 ^ 12 = -(qc - qn - 1 / 10 ^ 12) by ring, this,
      show -qc + -change (qc - qn) (qp - qc) (qc - qn - 1 / 10 ^ 12) + (qc + change (qc - qn) (qp - qc) (qc - qn + 1 / 10 ^ 12)) =
      change (qc - qn) (qp - qc) (qc - qn + 1 / 10 ^ 12) - change (qc - qn) (qp - qc) (qc - qn - 1 / 10 ^ 12) by ring]
    exact A.trans le
  · have := odd (qp - qpp) (qc - qp) (qp - qpp + 1 / 10 ^ 12)
    rw [show -qp - -qpp = -(qp - qpp) by ring, show -qc - -qp = -(qc - qp) by ring, show -(qp - qpp) - 1 / 10 ^ 12 = -(qp - qpp + 1 / 10 ^ 12) by ring, this,
      show -qp + -change (qp - qpp) (qc - qp) (qp - qpp + 1 / 10 ^ 12) + (qp + change (qp - qpp) (qc - qp) (qp - qpp - 1 / 10 ^ 12)) =
      -(change (qp - qpp) (qc - qp) (qp - qpp + 1 / 10 ^ 12) - change (qp - qpp) (qc - qp) (qp - qpp - 1 / 10 ^ 12)) by ring, abs_neg]
    exact B.trans le

example : ∃ qn qc qp qpp : ℝ, qc - qn + 1 / 10 ^ 12 ≠ 0 ∧ qc - qn - 1 / 10 ^ 12 ≠ 0 ∧ qpp - qp + 1 / 10 ^ 12 ≠ 0 ∧ qpp - qp - 1 / 10 ^ 12 ≠ 0 :=
  ⟨0, 1, 2, 3, by norm_num, by norm_num, by norm_num, by norm_num⟩

/-- The state of a gas seen in a mirror across direction `d`. -/
def Gas.mirror (d : Fin 3) (q : Gas) : Gas := ⟨q.rho, fun k => if k = d then -q.mom k else q.mom k, q.en⟩

/-- The flux seen in a mirror across direction `d`: densities move the other way, the momentum along `d` carried in the other direction is the same. -/
def mirrorFlux (d : Fin 3) (f : List ℝ) : List ℝ := f.zipIdx.map fun p => if p.2 = (d : Nat) + 1 then p.1 else -p.1

private theorem combine_even (s r f f' q q' : ℝ) : Euler.combine (-r) (-s) (-f') (-f) q' q = -Euler.combine s r f f' q q' := by
  rw [Euler.combine_real, Euler.combine_real]
  have c1 : (0 ≤ -s ∧ -r ≤ 0) ↔ (0 ≤ r ∧ s ≤ 0) := by constructor <;> rintro ⟨_, _⟩ <;> constructor <;> linarith
  have c2 : (0 < -r) ↔ (r < 0) := by constructor <;> intro <;> linarith
  have c3 : (-s < 0) ↔ (0 < s) := by constructor <;> intro <;> linarith
  simp only [c1, c2, c3]
  rw [show -s - -r = r - s by ring]
  ring
private theorem combine_odd (s r f f' q q' : ℝ) : Euler.combine (-r) (-s) f' f (-q') (-q) = Euler.combine s r f f' q q' := by
  have := combine_even s r (-f) (-f') (-q) (-q')
  rw [neg_neg, neg_neg] at this
  rw [this, Euler.combine_real, Euler.combine_real]
  ring

/-- **C92** What holds exactly: the HLL flux and the flux of Maxwell's equations treat left and right alike. Two gases exchanged and seen in a mirror have the flux seen in the mirror. -/
theorem C92_hll (gamma : ℝ) (d : Fin 3) (l r : Gas) : ∃ f, Euler.hll gamma (d : Nat) l.comps r.comps = .ok f ∧
    Euler.hll gamma (d : Nat) (Gas.mirror d r).comps (Gas.mirror d l).comps = .ok (mirrorFlux d f) := by
  have hp : ∀ (q0 q1 q2 q3 q4 : ℝ), Euler.pOf gamma q0 (-q1) q2 q3 q4 = Euler.pOf gamma q0 q1 q2 q3 q4 ∧ Euler.pOf gamma q0 q1 (-q2) q3 q4 = Euler.pOf gamma q0 q1 q2 q3 q4 ∧
      Euler.pOf gamma q0 q1 q2 (-q3) q4 = Euler.pOf gamma q0 q1 q2 q3 q4 := by
    intro q0 q1 q2 q3 q4; unfold Euler.pOf; refine ⟨?_, ?_, ?_⟩ <;> ring
  have hs : ∀ m ρ c : ℝ, -m / ρ - c = -(m / ρ + c) ∧ -m / ρ + c = -(m / ρ - c) := by intro m ρ c; constructor <;> ring
  unfold Gas.comps Gas.mirror
  fin_cases d
  · refine ⟨_, Euler.hll_dim0 .., ?_⟩
    show Euler.hll gamma ((0 : Nat) : Int) _ _ = _
    simp only [Fin.zero_eta, if_true, show (1 : Fin 3) ≠ 0 by decide, show (2 : Fin 3) ≠ 0 by decide, if_false]
    rw [Euler.hll_dim0]
    simp only [(hp _ _ _ _ _).1, (hs _ _ _).1, (hs _ _ _).2]
    simp only [Euler.hllWith, Euler.of5, mirrorFlux, List.zipIdx_cons, List.zipIdx_nil, List.map_cons, List.map_nil]
    norm_num
    refine ⟨?_, ?_, ?_, ?_, ?_⟩
    · rw [← combine_even]; congr 1 <;> ring
    · rw [← combine_odd]; congr 1 <;> ring
    · rw [← combine_even]; congr 1 <;> ring
    · rw [← combine_even]; congr 1 <;> ring
    · rw [← combine_even]; congr 1 <;> ring
  · refine ⟨_, Euler.hll_dim1 .., ?_⟩
    show Euler.hll gamma ((1 : Nat) : Int) _ _ = _
    simp only [Fin.mk_one, if_true, show (0 : Fin 3) ≠ 1 by decide, show (2 : Fin 3) ≠ 1 by decide, if_false]
    rw [Euler.hll_dim1]
    simp only [(hp _ _ _ _ _).2.1, (hs _ _ _).1, (hs _ _ _).2]
    simp only [Euler.hllWith, Euler.of5, mirrorFlux, List.zipIdx_cons, List.zipIdx_nil, List.map_cons, List.map_nil]
    norm_num
    refine ⟨?_, ?_, ?_, ?_, ?_⟩
    · rw [← combine_even]; congr 1 <;> ring
    · rw [← combine_even]; congr 1 <;> ring
    · rw [← combine_odd]; congr 1 <;> ring
    · rw [← combine_even]; congr 1 <;> ring
    · rw [← combine_even]; congr 1 <;> ring
  · refine ⟨_, Euler.hll_dim2 .., ?_⟩
    show Euler.hll gamma ((2 : Nat) : Int) _ _ = _
    simp only [Fin.reduceFinMk, if_true, show (0 : Fin 3) ≠ 2 by decide, show (1 : Fin 3) ≠ 2 by decide, if_false]
    rw [Euler.hll_dim2]
    simp only [(hp _ _ _ _ _).2.2, (hs _ _ _).1, (hs _ _ _).2]
    simp only [Euler.hllWith, Euler.of5, mirrorFlux, List.zipIdx_cons, List.zipIdx_nil, List.map_cons, List.map_nil]
    norm_num
    refine ⟨?_, ?_, ?_, ?_, ?_⟩
    · rw [← combine_even]; congr 1 <;> ring
    · rw [← combine_even]; congr 1 <;> ring
    · rw [← combine_even]; congr 1 <;> ring
    · rw [← combine_odd]; congr 1 <;> ring
    · rw [← combine_even]; congr 1 <;> ring

/-- Signs of the six components of an electromagnetic field seen in a mirror across direction `d`: the electric field changes sign along `d`, the magnetic field across `d`. -/
def mirrorSign (d j : Nat) : ℝ := if j = d ∨ (3 ≤ j ∧ j ≠ d + 3) then -1 else 1

/-- **C92** Likewise two fields: exchanged and seen in a mirror they have the flux seen in the mirror, where the direction of transport changes. -/
theorem C92_rusanov (c : ℝ) (d : Fin 3) (l r : Nat → ℝ) : ∃ f, Maxwell.rusanov c d ((List.range 6).map l) ((List.range 6).map r) = .ok f ∧
    Maxwell.rusanov c d ((List.range 6).map fun j => mirrorSign d j * r j) ((List.range 6).map fun j => mirrorSign d j * l j) =
      .ok (f.zipIdx.map fun p => -mirrorSign d p.2 * p.1) := by
  have h : ∀ u : Nat → ℝ, (List.range 6).map u = [u 0, u 1, u 2, u 3, u 4, u 5] := fun _ => rfl
  simp only [h]
  fin_cases d <;>
  · refine ⟨_, rfl, ?_⟩
    simp only [Maxwell.rusanov, List.zipIdx_cons, List.zipIdx_nil, List.map_cons, List.map_nil, mirrorSign, real_lit]
    norm_num
    try refine ⟨?_, ?_, ?_, ?_⟩ <;> ring

/-! ## C93 -/

/-- **C93** (false of the code) The reconstruction depends on the unit in which the values are measured: values a millionth of a millionth as large do not give states a millionth of a
millionth as large. Linear data in the small unit are reconstructed with the slope 3/5 of the right one. -/
theorem C93_false : (FV.recon (0 : ℝ) (1 / 10 ^ 12) (2 / 10 ^ 12) (3 / 10 ^ 12)).1 ≠ 1 / 10 ^ 12 * (FV.recon (0 : ℝ) 1 2 3).1 ∧
    (FV.recon (0 : ℝ) (1 / 10 ^ 12) (2 / 10 ^ 12) (3 / 10 ^ 12)).1 = 1 / 10 ^ 12 + 3 / 5 * (1 / 2 / 10 ^ 12) := by
  constructor <;>
  · simp only [FV.recon, real_lit]
    norm_num

/-- **C93**, what holds: values `k` times as large give states `k` times as large up to `1e-12 (1 + k)`, unless a denominator is zero. So the unit does not matter for values whose
differences are much larger than 1e-12. -/
theorem C93_partial {k qn qc qp qpp : ℝ} (hk : 0 < k) (h1 : qc - qn + 1 / 10 ^ 12 ≠ 0) (h2 : k * (qc - qn) + 1 / 10 ^ 12 ≠ 0) (h3 : qpp - qp + 1 / 10 ^ 12 ≠ 0)
    (h4 : k * (qpp - qp) + 1 / 10 ^ 12 ≠ 0) :
    |(FV.recon (k * qn) (k * qc) (k * qp) (k * qpp)).1 - k * (FV.recon qn qc qp qpp).1| ≤ (1 + k) / 10 ^ 12 ∧
    |(FV.recon (k * qn) (k * qc) (k * qp) (k * qpp)).2 - k * (FV.recon qn qc qp qpp).2| ≤ (1 + k) / 10 ^ 12 := by
  have he : (0 : ℝ) < 1 / 10 ^ 12 := by positivity
  have scale : ∀ a b : ℝ, change (k * a) (k * b) (k * a) = k * change a b a := by
    intro a b; unfold change; rw [mul_div_mul_left _ _ hk.ne']; ring
  have key : ∀ {a b e : ℝ}, |e| = 1 / 10 ^ 12 → a + e ≠ 0 → k * a + e ≠ 0 → |change (k * a) (k * b) (k * a + e) - k * change a b (a + e)| ≤ (1 + k) / 10 ^ 12 := by
    intro a b e he' h1 h2
    have A := change_ideal (b := b) h1
    have B := change_ideal (b := k * b) h2
    rw [scale] at B
    rw [he', abs_le] at A B
    rw [abs_le]
    have A1 := mul_le_mul_of_nonneg_left A.1 hk.le
    have A2 := mul_le_mul_of_nonneg_left A.2 hk.le
    constructor
    · have : -((1 + k) / 10 ^ 12) = -(1 / 10 ^ 12 : ℝ) - k * (1 / 10 ^ 12) := by ring
      rw [this]; nlinarith [B.1]
    · have : (1 + k) / 10 ^ 12 = (1 / 10 ^ 12 : ℝ) + k * (1 / 10 ^ 12) := by ring
      rw [this]; nlinarith [B.2]
  simp only [recon_change]
  constructor
  · have := key (a := qc - qn) (b := qp - qc) (abs_of_pos he) h1 h2
    rw [show k * qc - k * qn = k * (qc - qn) by ring, show k * qp - k * qc = k * (qp - qc) by ring,
      show ∀ X Y : ℝ, k * qc + X - k * (qc + Y) = X - k * Y by intro X Y; ring]
    exact this
  · have := key (a := qp - qpp) (b := qc - qp) (e := -(1 / 10 ^ 12)) (by rw [abs_neg, abs_of_pos he]) (by intro h; apply h3; linarith) (by intro h; apply h4; linarith)
    rw [show k * qp - k * qpp = k * (qp - qpp) by ring, show k * qc - k * qp = k * (qc - qp) by ring,
      show ∀ X Y : ℝ, k * qp + X - k * (qp + Y) = X - k * Y by intro X Y; ring]
    exact this

/-- Densities of this size are reconstructed as if they were constant in each cell: the change is at most a thousandth of the difference to the neighbour, not half of it. -/
theorem small_first_order {M qn qc qp qpp : ℝ} (hM : M ≤ 8 / 10 ^ 16) (hn : 0 ≤ qn ∧ qn ≤ M) (hc : 0 ≤ qc ∧ qc ≤ M) (hp : 0 ≤ qp ∧ qp ≤ M) (hpp : 0 ≤ qpp ∧ qpp ≤ M) :
    |(FV.recon qn qc qp qpp).1 - qc| ≤ 1 / 1000 * |qc - qn| ∧ |(FV.recon qn qc qp qpp).2 - qp| ≤ 1 / 1000 * |qp - qpp| := by
  have key : ∀ {a b s : ℝ}, |b| ≤ 8 / 10 ^ 16 → 9 / 10 ^ 13 ≤ |s| → |change a b s| ≤ 1 / 1000 * |a| := by
    intro a b s hb hs
    unfold change
    rw [abs_mul, abs_mul]
    refine mul_le_mul_of_nonneg_right ?_ (abs_nonneg a)
    have hr : |b / s| ≤ 1 / 1000 := by
      rw [abs_div, div_le_iff₀ (lt_of_lt_of_le (by positivity) hs)]
      calc |b| ≤ 8 / 10 ^ 16 := hb
        _ ≤ 1 / 1000 * (9 / 10 ^ 13) := by norm_num
        _ ≤ _ := mul_le_mul_of_nonneg_left hs (by norm_num)
    generalize b / s = r at hr
    have h2 : |(r * r + r) / (r * r + 1)| ≤ 2 / 1000 := by
      rw [abs_div, abs_of_pos (show 0 < r * r + 1 by nlinarith [sq_nonneg r]), div_le_iff₀ (by nlinarith [sq_nonneg r])]
      rw [abs_le] at hr ⊢
      constructor <;> nlinarith [sq_nonneg r]
    rw [show |(1 : ℝ) / 2| = 1 / 2 by norm_num]
    linarith
  have d : ∀ {x y : ℝ}, 0 ≤ x ∧ x ≤ M → 0 ≤ y ∧ y ≤ M → |x - y| ≤ 8 / 10 ^ 16 := by
    intro x y hx hy; rw [abs_le]; constructor <;> linarith [hx.1, hx.2, hy.1, hy.2]
  rw [recon_change]
  constructor
  · rw [add_sub_cancel_left]
    refine key (d hp hc) ?_
    have := d hc hn
    rw [abs_le] at this
    rw [le_abs]
    left
    norm_num at this ⊢
    linarith [this.1]
  · rw [add_sub_cancel_left]
    refine key (d hc hp) ?_
    have := d hp hpp
    rw [abs_le] at this
    rw [le_abs]
    right
    norm_num at this ⊢
    linarith [this.2]

/-- **C93** (false of the code) In the program of main.cpp, in SI units, the mass density of the electrons is so small that its reconstruction is not of second order: all densities of the
start state are below 8e-16 (kg per cubic metre), and for any four densities of this size both states differ from the values of their cells by at most a thousandth of the difference
between neighbours, where for linear data it should be half of it. -/
theorem C93_electrons_false {g : Rectilinear ℝ} {m0 : Mgr ℝ} {q : State ℝ} {nx : Int} (hnx : 2 ≤ nx) (hg : grid GemConstants.make nx = .ok g)
    (hic : Solve.gem (GemChallenge.initial GemConstants.make) [electrons.q, ions.q, fields.q] (Mgr.make g) = .ok () m0) (he : m0.Stores electrons.q q.e) (hi : m0.Stores ions.q q.i)
    (hf : m0.Stores fields.q q.f) :
    (∀ i j : Int, 0 ≤ i → i < nx → 0 ≤ j → j < 2 * nx → 0 < q.e [i, j, 0, 0] ∧ q.e [i, j, 0, 0] ≤ 8 / 10 ^ 16) ∧
    ∀ qn qc qp qpp : ℝ, (∀ v ∈ [qn, qc, qp, qpp], 0 < v ∧ v ≤ 8 / 10 ^ 16) →
      |(FV.recon qn qc qp qpp).1 - qc| ≤ 1 / 1000 * |qc - qn| ∧ |(FV.recon qn qc qp qpp).2 - qp| ≤ 1 / 1000 * |qp - qpp| := by
  constructor
  · obtain ⟨n0, Te, Ti, B0, C, h⟩ := C88_gem hnx hg hic he hi hf
    intro i j h1 h2 h3 h4
    have := (h i j h1 h2 h3 h4).rho_e
    generalize (3.14159263 * (((i : ℝ) + 1 / 2) / nx - 1 / 2) : ℝ) = x at this
    have e : q.e [i, j, 0, 0] = massE * sheetN n0 (n0 / 5) (1 / 2) x := by simpa using this
    have hn : n0 = lightC ^ 2 * (epsilon0 * (25 * massE)) / chargeE ^ 2 := by
      have := C.density
      have c1 : chargeE ≠ 0 := by norm_num [chargeE]
      have c2 : epsilon0 ≠ 0 := by norm_num [epsilon0]
      have c3 : massE ≠ 0 := by norm_num [massE]
      field_simp at this ⊢
      linarith
    have hn0 : 0 < n0 := by rw [hn]; norm_num [lightC, epsilon0, massE, chargeE]
    have hm : 0 < massE := by norm_num [massE]
    have hb : massE * (6 / 5 * n0) ≤ 8 / 10 ^ 16 := by rw [hn]; norm_num [lightC, epsilon0, massE, chargeE]
    have hc : 1 ≤ Real.cosh (x / (1 / 2)) ^ 2 := one_le_pow₀ (Real.one_le_cosh _)
    rw [e]
    unfold sheetN
    refine ⟨by positivity, le_trans (mul_le_mul_of_nonneg_left ?_ hm.le) hb⟩
    have : n0 / Real.cosh (x / (1 / 2)) ^ 2 ≤ n0 := div_le_self hn0.le hc
    linarith
  · intro qn qc qp qpp hv
    have a := hv qn (by simp); have b := hv qc (by simp); have c := hv qp (by simp); have d := hv qpp (by simp)
    exact small_first_order le_rfl ⟨a.1.le, a.2⟩ ⟨b.1.le, b.2⟩ ⟨c.1.le, c.2⟩ ⟨d.1.le, d.2⟩

-- the hypotheses hold for the program as configured
example : ∃ (g : Rectilinear ℝ) (m0 : Mgr ℝ) (q : State ℝ), grid GemConstants.make 256 = .ok g ∧
    Solve.gem (GemChallenge.initial GemConstants.make) [electrons.q, ions.q, fields.q] (Mgr.make g) = .ok () m0 ∧ m0.Stores electrons.q q.e ∧ q.e [100, 300, 0, 0] ≤ 8 / 10 ^ 16 := by
  obtain ⟨g, P, m0, hP, hg, _, hic, _, _, s, _, H, _⟩ := C81_gem (α := ℝ) (nx := 256) (by decide) (fun _ => true) 1000 125
  have he : m0.Stores electrons.q (s 0).e := by have := H.e; rwa [show P.e.at 0 = electrons.q from hP.electrons] at this
  have hi : m0.Stores ions.q (s 0).i := by have := H.i; rwa [show P.i.at 0 = ions.q from hP.ions] at this
  have hf : m0.Stores fields.q (s 0).f := by have := H.f; rwa [show P.f.at 0 = fields.q from hP.field] at this
  exact ⟨g, m0, s 0, hg, hic, he, ((C93_electrons_false (by decide) hg hic he hi hf).1 100 300 (by decide) (by decide) (by decide) (by decide)).2⟩

-- linear data of this size: half a difference is missing
example : |(FV.recon (1 / 10 ^ 16 : ℝ) (2 / 10 ^ 16) (3 / 10 ^ 16) (4 / 10 ^ 16)).1 - 2 / 10 ^ 16| ≤ 1 / 1000 * |2 / 10 ^ 16 - 1 / 10 ^ 16| :=
  (small_first_order (M := 8 / 10 ^ 16) le_rfl (by norm_num) (by norm_num) (by norm_num) (by norm_num)).1

example : ∃ k qn qc qp qpp : ℝ, 0 < k ∧ qc - qn + 1 / 10 ^ 12 ≠ 0 ∧ k * (qc - qn) + 1 / 10 ^ 12 ≠ 0 ∧ qpp - qp + 1 / 10 ^ 12 ≠ 0 ∧ k * (qpp - qp) + 1 / 10 ^ 12 ≠ 0 :=
  ⟨1000, 0, 1, 2, 3, by norm_num, by norm_num, by norm_num, by norm_num, by norm_num⟩

end QK.Props
