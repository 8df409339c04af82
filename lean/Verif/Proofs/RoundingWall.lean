import Verif.Proofs.Rounding
/- Helper lemmas: fluxes through walls in rounded arithmetic. -/
namespace QK
open Spec

section
variable {α : Type} [Arith α] {val : α → ℝ} {fin : α → Prop} {rd : ℝ → ℝ} {big u e : ℝ}

/-- `a` is finite if and only if `b` is, and then it is `σ` times `b`. -/
def Rel (val : α → ℝ) (fin : α → Prop) (σ : ℝ) (a b : α) : Prop := (fin a ↔ fin b) ∧ (fin a → val a = σ * val b)

variable (H : Floats val fin rd big u e)
include H

theorem rd_sign {σ : ℝ} (h : σ = 1 ∨ σ = -1) (x : ℝ) : rd (σ * x) = σ * rd x := by
  rcases h with rfl | rfl
  · simp
  · rw [neg_one_mul, H.odd, neg_one_mul]

omit H in
theorem abs_sign {σ : ℝ} (h : σ = 1 ∨ σ = -1) (x : ℝ) : |σ * x| = |x| := by
  rcases h with rfl | rfl <;> simp

theorem Rel.add {σ : ℝ} (hσ : σ = 1 ∨ σ = -1) {a b c d : α} (h : Rel val fin σ a b) (h' : Rel val fin σ c d) : Rel val fin σ (a + c) (b + d) := by
  have key : fin a → fin c → rd (val a + val c) = σ * rd (val b + val d) := by
    intro ha hc
    rw [h.2 ha, h'.2 hc, ← mul_add, rd_sign H hσ]
  have iff : fin (a + c) ↔ fin (b + d) := by
    rw [H.add, H.add, ← h.1, ← h'.1]
    refine and_congr_right fun ha => and_congr_right fun hc => ?_
    rw [key ha hc, abs_sign hσ]
  refine ⟨iff, fun hf => ?_⟩
  rw [H.add_val hf, H.add_val (iff.1 hf), key (H.add.1 hf).1 (H.add.1 hf).2.1]

theorem Rel.sub {σ : ℝ} (hσ : σ = 1 ∨ σ = -1) {a b c d : α} (h : Rel val fin σ a b) (h' : Rel val fin σ c d) : Rel val fin σ (a - c) (b - d) := by
  have key : fin a → fin c → rd (val a - val c) = σ * rd (val b - val d) := by
    intro ha hc
    rw [h.2 ha, h'.2 hc, ← mul_sub, rd_sign H hσ]
  have iff : fin (a - c) ↔ fin (b - d) := by
    rw [H.sub, H.sub, ← h.1, ← h'.1]
    refine and_congr_right fun ha => and_congr_right fun hc => ?_
    rw [key ha hc, abs_sign hσ]
  refine ⟨iff, fun hf => ?_⟩
  rw [H.sub_val hf, H.sub_val (iff.1 hf), key (H.sub.1 hf).1 (H.sub.1 hf).2.1]

omit H in
theorem sign_mul {σ τ : ℝ} (hσ : σ = 1 ∨ σ = -1) (hτ : τ = 1 ∨ τ = -1) : σ * τ = 1 ∨ σ * τ = -1 := by
  rcases hσ with rfl | rfl <;> rcases hτ with rfl | rfl <;> simp

theorem Rel.mul {σ τ : ℝ} (hσ : σ = 1 ∨ σ = -1) (hτ : τ = 1 ∨ τ = -1) {a b c d : α} (h : Rel val fin σ a b) (h' : Rel val fin τ c d) :
    Rel val fin (σ * τ) (a * c) (b * d) := by
  have key : fin a → fin c → rd (val a * val c) = σ * τ * rd (val b * val d) := by
    intro ha hc
    rw [h.2 ha, h'.2 hc, ← rd_sign H (sign_mul hσ hτ)]
    congr 1; ring
  have iff : fin (a * c) ↔ fin (b * d) := by
    rw [H.mul, H.mul, ← h.1, ← h'.1]
    refine and_congr_right fun ha => and_congr_right fun hc => ?_
    rw [key ha hc, abs_sign (sign_mul hσ hτ)]
  refine ⟨iff, fun hf => ?_⟩
  rw [H.mul_val hf, H.mul_val (iff.1 hf), key (H.mul.1 hf).1 (H.mul.1 hf).2.1]

/-- Quotients: if both are finite. -/
theorem Rel.div {σ τ : ℝ} (hσ : σ = 1 ∨ σ = -1) (hτ : τ = 1 ∨ τ = -1) {a b c d : α} (h : Rel val fin σ a b) (h' : Rel val fin τ c d)
    (f1 : fin (a / c)) (f2 : fin (b / d)) : Rel val fin (σ * τ) (a / c) (b / d) := by
  refine ⟨iff_of_true f1 f2, fun _ => ?_⟩
  obtain ⟨ha, h1⟩ := H.div f1
  obtain ⟨hb, h2⟩ := H.div f2
  rcases h1 with ⟨hc, hc0, e1⟩ | ⟨hc, e1⟩
  · rcases h2 with ⟨hd, hd0, e2⟩ | ⟨hd, e2⟩
    · rw [e1, e2, h.2 ha, h'.2 hc, ← rd_sign H (sign_mul hσ hτ)]
      congr 1
      rcases hτ with rfl | rfl
      · simp [mul_div_assoc]
      · rw [neg_one_mul, div_neg]; ring
    · exact absurd (h'.1.1 hc) hd
  · rcases h2 with ⟨hd, hd0, e2⟩ | ⟨hd, e2⟩
    · exact absurd (h'.1.2 hd) hc
    · rw [e1, e2, mul_zero]

theorem Rel.of_vals {σ : ℝ} {a b : α} (ha : fin a) (hb : fin b) (h : val a = σ * val b) : Rel val fin σ a b := ⟨iff_of_true ha hb, fun _ => h⟩

omit H in
theorem Rel.refl (a : α) : Rel val fin 1 a a := ⟨Iff.rfl, fun _ => (one_mul _).symm⟩

theorem Rel.swap_sub (a b : α) : Rel val fin (-1) (a - b) (b - a) := by
  have key : rd (val a - val b) = -1 * rd (val b - val a) := by
    rw [← neg_sub, H.odd, neg_one_mul]
  have iff : fin (a - b) ↔ fin (b - a) := by
    rw [H.sub, H.sub, key, abs_sign (.inr rfl)]
    tauto
  exact ⟨iff, fun hf => by rw [H.sub_val hf, H.sub_val (iff.1 hf), key]⟩

theorem Rel.sqrt {a b : α} (h : Rel val fin 1 a b) (f1 : fin (Arith.sqrt a)) (f2 : fin (Arith.sqrt b)) : Rel val fin 1 (Arith.sqrt a) (Arith.sqrt b) := by
  obtain ⟨ha, -, e1⟩ := H.sqrt f1
  obtain ⟨-, -, e2⟩ := H.sqrt f2
  refine ⟨iff_of_true f1 f2, fun _ => ?_⟩
  rw [e1, e2, h.2 ha]; simp

theorem Rel.flip (b : α) : Rel val fin (-1) (b * Arith.lit (-1)) b := by
  have r1 : rd (-1) = -1 := by
    have := H.lits 1 (by simp)
    push_cast at this
    rw [H.odd, this]
  have hl := H.lit (-1) (by push_cast; rw [r1]; have := H.three; norm_num; linarith)
  push_cast at hl
  rw [r1] at hl
  have key : fin b → rd (val b * val (Arith.lit (-1) : α)) = -1 * val b := by
    intro hb
    rw [hl.2, mul_neg_one, H.odd, (H.number hb).1, neg_one_mul]
  have iff : fin (b * Arith.lit (-1)) ↔ fin b := by
    rw [H.mul]
    constructor
    · exact fun h => h.1
    · exact fun h => ⟨h, hl.1, by rw [key h, abs_sign (.inr rfl)]; exact (H.number h).2⟩
  exact ⟨iff, fun hf => by rw [H.mul_val hf, key (iff.1 hf)]⟩

/-- Values that are zero. -/
theorem zero_mul_val {a b : α} (ha : val a = 0 ∨ val b = 0) (hf : fin (a * b)) : val (a * b) = 0 := by
  rw [H.mul_val hf, ← H.rd_zero]
  congr 1
  rcases ha with h | h <;> rw [h] <;> simp

theorem zero_div_val {a b : α} (ha : val a = 0) (hf : fin (a / b)) : val (a / b) = 0 := by
  rcases (H.div hf).2 with ⟨-, -, h⟩ | ⟨-, h⟩
  · rw [h, ha, zero_div, H.rd_zero]
  · exact h

theorem zero_add_val {a b : α} (ha : val a = 0) (hf : fin (a + b)) : val (a + b) = val b := by
  rw [H.add_val hf, ha, zero_add, (H.number (H.add.1 hf).2.1).1]

theorem add_zero_val {a b : α} (hb : val b = 0) (hf : fin (a + b)) : val (a + b) = val a := by
  rw [H.add_val hf, hb, add_zero, (H.number (H.add.1 hf).1).1]

/-- The reconstruction at a wall. -/
theorem recon_rel {σ : ℝ} (hσ : σ = 1 ∨ σ = -1) {qn qc qp qpp : α} (h : Rel val fin σ qc qp) (h' : Rel val fin σ qn qpp)
    (f1 : fin (FV.recon qn qc qp qpp).1) (f2 : fin (FV.recon qn qc qp qpp).2) :
    val (FV.recon qn qc qp qpp).1 = σ * val (FV.recon qn qc qp qpp).2 := by
  unfold FV.recon at f1 f2 ⊢
  dsimp only at f1 f2 ⊢
  obtain ⟨fqc, fm1, -⟩ := H.add.1 f1
  obtain ⟨fqp, fm2, -⟩ := H.add.1 f2
  obtain ⟨fh1, fd1, -⟩ := H.mul.1 fm1
  obtain ⟨fh2, fd2, -⟩ := H.mul.1 fm2
  obtain ⟨fl1, fp1, -⟩ := H.mul.1 fh1
  obtain ⟨-, fp2, -⟩ := H.mul.1 fh2
  have frl := (H.add.1 (H.div fp1).1).2.1
  have frr := (H.add.1 (H.div fp2).1).2.1
  rcases hσ with rfl | rfl
  · have z : ∀ {x : α} {y : α}, fin (((x * x + x) / (x * x + Arith.lit 1))) → x = (qp - qc) / y →
        val ((x * x + x) / (x * x + Arith.lit 1)) = 0 := by
      intro x y hf hx
      have hs := (H.div hf).1
      have hx2 := (H.add.1 hs).2.1
      have hv : val x = 0 := by
        rw [hx] at hx2 ⊢
        refine zero_div_val H ?_ hx2
        rw [H.sub_val (H.div hx2).1, h.2 fqc, one_mul, sub_self, H.rd_zero]
      refine zero_div_val H ?_ hf
      rw [zero_add_val H (zero_mul_val H (.inl hv) (H.add.1 hs).1) hs, hv]
    have e1 := z fp1 rfl
    have e2 := z fp2 rfl
    rw [add_zero_val H (zero_mul_val H (.inl (zero_mul_val H (.inr e1) fh1)) fm1) f1,
      add_zero_val H (zero_mul_val H (.inl (zero_mul_val H (.inr e2) fh2)) fm2) f2]
    exact h.2 fqc
  · -- denominators agree
    have R1 : Rel val fin (-1) (qc - qn) (qp - qpp) := h.sub H (.inr rfl) h'
    have R2 : Rel val fin 1 (qc - qn) (qpp - qp) := by
      have s := Rel.swap_sub H qpp qp
      exact ⟨R1.1.trans s.1.symm, fun hf => by rw [R1.2 hf, s.2 ((R1.1.trans s.1.symm).1 hf)]; ring⟩
    have R3 := R2.add H (.inl rfl) (Rel.refl (Arith.lit (1 / 10 ^ 12)))
    have R4 := (Rel.refl (val := val) (fin := fin) (qp - qc)).div H (.inl rfl) (.inl rfl) R3 frl frr
    rw [one_mul] at R4
    have R5 := R4.mul H (.inl rfl) (.inl rfl) R4
    rw [one_mul] at R5
    have R6 := (R5.add H (.inl rfl) R4).div H (.inl rfl) (.inl rfl) (R5.add H (.inl rfl) (Rel.refl (Arith.lit 1))) fp1 fp2
    rw [one_mul] at R6
    have R7 := (Rel.refl (val := val) (fin := fin) (Arith.lit (1 / 2) : α)).mul H (.inl rfl) (.inl rfl) R6
    rw [one_mul] at R7
    have R8 := R7.mul H (.inl rfl) (.inr rfl) R1
    rw [one_mul] at R8
    exact (h.add H (.inr rfl) R8).2 f1


omit H in
theorem Rel.symm {σ : ℝ} (hσ : σ = 1 ∨ σ = -1) {a b : α} (h : Rel val fin σ a b) : Rel val fin σ b a := by
  refine ⟨h.1.symm, fun hb => ?_⟩
  rw [h.2 (h.1.2 hb)]
  rcases hσ with rfl | rfl <;> simp

/-! ### Fluxes through walls -/

theorem div_val {a b : α} (hb : fin b) (hf : fin (a / b)) : fin a ∧ val b ≠ 0 ∧ val (a / b) = rd (val a / val b) := by
  obtain ⟨ha, ⟨-, h1, h2⟩ | ⟨h1, -⟩⟩ := H.div hf
  · exact ⟨ha, h1, h2⟩
  · exact absurd hb h1

omit H in
theorem ofBool_cases (b : Bool) : (Arith.ofBool b : α) = Arith.lit (if b then 1 else 0) := by
  cases b <;> rfl

theorem combine_fin {sll srr f f' q q' : α} (hf : fin (Euler.combine sll srr f f' q q')) : fin sll ∧ fin srr ∧ fin f ∧ fin f' ∧ fin q ∧ fin q' := by
  unfold Euler.combine at hf
  obtain ⟨h1, -, -⟩ := H.add.1 hf
  obtain ⟨h1, -, -⟩ := H.add.1 h1
  have h1 := (H.div (H.mul.1 h1).2.1).1
  obtain ⟨h1, h2, -⟩ := H.add.1 h1
  obtain ⟨h3, h4, -⟩ := H.sub.1 h1
  obtain ⟨-, h5, -⟩ := H.mul.1 h2
  exact ⟨(H.mul.1 h4).1, (H.mul.1 h3).1, (H.mul.1 h3).2.1, (H.mul.1 h4).2.1, (H.sub.1 h5).2.1, (H.sub.1 h5).1⟩

theorem combine_wall {sll srr f f' q q' : α} (hf : fin (Euler.combine sll srr f f' q q')) (h1 : val sll = -val srr) (h2 : val f = -val f')
    (h3 : val q = val q') : val (Euler.combine sll srr f f' q q') = 0 := by
  obtain ⟨fl, fr, ff, ff', fq, fq'⟩ := combine_fin H hf
  have l0 := H.val_lit (q := 0) (by simp)
  have l1 := H.val_lit (q := 1) (by simp)
  push_cast at l0 l1
  unfold Euler.combine at hf ⊢
  obtain ⟨g1, g2, -⟩ := H.add.1 hf
  obtain ⟨g3, g4, -⟩ := H.add.1 g1
  have g5 := (H.mul.1 g3).2.1
  have g6 := (H.div g5).1
  obtain ⟨g7, g8, -⟩ := H.add.1 g6
  have g9 := (H.mul.1 g8).2.1
  have z1 : val (q' - q) = 0 := by rw [H.sub_val g9, h3, sub_self, H.rd_zero]
  have z2 : val (srr * f - sll * f') = 0 := by
    rw [H.sub_val g7, H.mul_val (H.sub.1 g7).1, H.mul_val (H.sub.1 g7).2.1, h1, h2, mul_neg, neg_mul, sub_self, H.rd_zero]
  have z3 : val (srr * f - sll * f' + sll * srr * (q' - q)) = 0 := by rw [zero_add_val H z2 g6, zero_mul_val H (.inr z1) g8]
  have z4 := zero_mul_val H (.inr (zero_div_val H z3 g5)) g3
  have b1 : Arith.lt (Arith.lit 0) sll = Arith.lt srr (Arith.lit 0) := by
    rw [Bool.eq_iff_iff, H.lt l0.1 fl, H.lt fr l0.1, l0.2, h1]
    constructor <;> intro h <;> linarith
  rw [b1] at g1 g4 hf ⊢
  by_cases hb : Arith.lt srr (Arith.lit 0) = true
  · rw [H.add_val hf, zero_add_val H z4 g1, H.mul_val g4, H.mul_val g2, hb, ofBool_cases]
    simp only [if_true, l1.2, one_mul]
    rw [(H.number ff).1, (H.number ff').1, h2, neg_add_cancel, H.rd_zero]
  · rw [Bool.not_eq_true] at hb
    rw [H.add_val hf, zero_add_val H z4 g1, H.mul_val g4, H.mul_val g2, hb, ofBool_cases]
    simp [l0.2, H.rd_zero]

theorem pOf_fin {gamma q0 q1 q2 q3 q4 : α} (hf : fin (Euler.pOf gamma q0 q1 q2 q3 q4)) : fin q1 ∧ fin q2 ∧ fin q3 ∧ fin q4 := by
  unfold Euler.pOf at hf
  obtain ⟨h4, h1, -⟩ := H.sub.1 (H.mul.1 hf).2.1
  obtain ⟨-, h1, -⟩ := H.mul.1 (H.div h1).1
  obtain ⟨h1, h3, -⟩ := H.add.1 h1
  obtain ⟨h1, h2, -⟩ := H.add.1 h1
  exact ⟨(H.mul.1 h1).1, (H.mul.1 h2).1, (H.mul.1 h3).1, h4⟩

/-- Mass and energy flux between states that mirror each other. -/
theorem hll_wall {gamma l0 l1 l2 l3 l4 r0 r1 r2 r3 r4 ld rn : α} {σ1 σ2 σ3 : ℝ} (s1 : σ1 = 1 ∨ σ1 = -1) (s2 : σ2 = 1 ∨ σ2 = -1) (s3 : σ3 = 1 ∨ σ3 = -1)
    (h0 : fin l0 → fin r0 → val l0 = 1 * val r0) (h1 : fin l1 → fin r1 → val l1 = σ1 * val r1) (h2 : fin l2 → fin r2 → val l2 = σ2 * val r2)
    (h3 : fin l3 → fin r3 → val l3 = σ3 * val r3) (h4 : fin l4 → fin r4 → val l4 = 1 * val r4) (hd : fin ld → fin rn → val ld = -1 * val rn)
    (hf : fin (Euler.combine (ld / l0 - Arith.sqrt (gamma * Euler.pOf gamma l0 l1 l2 l3 l4 / l0)) (rn / r0 + Arith.sqrt (gamma * Euler.pOf gamma r0 r1 r2 r3 r4 / r0))
      ld rn l0 r0)) :
    val (Euler.combine (ld / l0 - Arith.sqrt (gamma * Euler.pOf gamma l0 l1 l2 l3 l4 / l0)) (rn / r0 + Arith.sqrt (gamma * Euler.pOf gamma r0 r1 r2 r3 r4 / r0))
      ld rn l0 r0) = 0 ∧
    (fin (Euler.combine (ld / l0 - Arith.sqrt (gamma * Euler.pOf gamma l0 l1 l2 l3 l4 / l0)) (rn / r0 + Arith.sqrt (gamma * Euler.pOf gamma r0 r1 r2 r3 r4 / r0))
      ((l4 + Euler.pOf gamma l0 l1 l2 l3 l4) * (ld / l0)) ((r4 + Euler.pOf gamma r0 r1 r2 r3 r4) * (rn / r0)) l4 r4) →
    val (Euler.combine (ld / l0 - Arith.sqrt (gamma * Euler.pOf gamma l0 l1 l2 l3 l4 / l0)) (rn / r0 + Arith.sqrt (gamma * Euler.pOf gamma r0 r1 r2 r3 r4 / r0))
      ((l4 + Euler.pOf gamma l0 l1 l2 l3 l4) * (ld / l0)) ((r4 + Euler.pOf gamma r0 r1 r2 r3 r4) * (rn / r0)) l4 r4) = 0) := by
  obtain ⟨fs, fs', fd, fd', f0, f0'⟩ := combine_fin H hf
  obtain ⟨gu, gs, -⟩ := H.sub.1 fs
  obtain ⟨gu', gs', -⟩ := H.add.1 fs'
  have gp := (H.mul.1 (H.div (H.sqrt gs).1).1)
  have gp' := (H.mul.1 (H.div (H.sqrt gs').1).1)
  obtain ⟨f1, f2, f3, f4⟩ := pOf_fin H gp.2.1
  obtain ⟨f1', f2', f3', f4'⟩ := pOf_fin H gp'.2.1
  have R0 := Rel.of_vals H f0 f0' (h0 f0 f0')
  have R1 := Rel.of_vals H f1 f1' (h1 f1 f1')
  have R2 := Rel.of_vals H f2 f2' (h2 f2 f2')
  have R3 := Rel.of_vals H f3 f3' (h3 f3 f3')
  have R4 := Rel.of_vals H f4 f4' (h4 f4 f4')
  have Rd := Rel.of_vals H fd fd' (hd fd fd')
  have sq : ∀ {σ : ℝ}, (σ = 1 ∨ σ = -1) → σ * σ = 1 := by
    rintro σ (rfl | rfl) <;> norm_num
  have Q1 := R1.mul H s1 s1 R1
  have Q2 := R2.mul H s2 s2 R2
  have Q3 := R3.mul H s3 s3 R3
  rw [sq s1] at Q1
  rw [sq s2] at Q2
  rw [sq s3] at Q3
  have pl := gp.2.1
  have pr := gp'.2.1
  have Rp : Rel val fin 1 (Euler.pOf gamma l0 l1 l2 l3 l4) (Euler.pOf gamma r0 r1 r2 r3 r4) := by
    unfold Euler.pOf at pl pr ⊢
    have S := (Rel.refl (val := val) (fin := fin) (Arith.lit (1 / 2) : α)).mul H (.inl rfl) (.inl rfl) ((Q1.add H (.inl rfl) Q2).add H (.inl rfl) Q3)
    rw [one_mul] at S
    have T := S.div H (.inl rfl) (.inl rfl) R0 (H.sub.1 (H.mul.1 pl).2.1).2.1 (H.sub.1 (H.mul.1 pr).2.1).2.1
    rw [one_mul] at T
    have U := (Rel.refl (val := val) (fin := fin) (gamma - Arith.lit 1)).mul H (.inl rfl) (.inl rfl) (R4.sub H (.inl rfl) T)
    rw [one_mul] at U
    exact U
  have Rs : Rel val fin 1 (Arith.sqrt (gamma * Euler.pOf gamma l0 l1 l2 l3 l4 / l0)) (Arith.sqrt (gamma * Euler.pOf gamma r0 r1 r2 r3 r4 / r0)) := by
    have S := (Rel.refl (val := val) (fin := fin) gamma).mul H (.inl rfl) (.inl rfl) Rp
    rw [one_mul] at S
    have T := S.div H (.inl rfl) (.inl rfl) R0 (H.sqrt gs).1 (H.sqrt gs').1
    rw [one_mul] at T
    exact T.sqrt H gs gs'
  have Ru := Rd.div H (.inr rfl) (.inl rfl) R0 gu gu'
  rw [mul_one] at Ru
  have es : val (ld / l0 - Arith.sqrt (gamma * Euler.pOf gamma l0 l1 l2 l3 l4 / l0)) = -val (rn / r0 + Arith.sqrt (gamma * Euler.pOf gamma r0 r1 r2 r3 r4 / r0)) := by
    rw [H.sub_val fs, H.add_val fs', ← H.odd, Ru.2 gu, Rs.2 gs]
    congr 1; ring
  refine ⟨combine_wall H hf es (by rw [Rd.2 fd]; ring) (by rw [R0.2 f0]; ring), fun hf' => combine_wall H hf' es ?_ (by rw [R4.2 f4]; ring)⟩
  obtain ⟨-, -, fe, -⟩ := combine_fin H hf'
  rw [((R4.add H (.inl rfl) Rp).mul H (.inl rfl) (.inr rfl) Ru).2 fe]; ring

/-- The cells around the face below `z` mirror each other with signs `σ`. -/
def MirroredRel (val : α → ℝ) (fin : α → Prop) (n : Nat) (σ : Nat → ℝ) (w : Cell → Nat → α) (dim : Nat) (z : Cell) : Prop :=
  ∀ j < n, Rel val fin (σ j) (w (moveBy z dim (-2)) j) (w (moveBy z dim 1) j) ∧ Rel val fin (σ j) (w (moveBy z dim (-1)) j) (w z j)

theorem fluid_face {w : Cell → Nat → α} {dim : Nat} (hd : dim < 3) {z : Cell} {σ : Nat → ℝ} (hσ : ∀ j < 5, σ j = 1 ∨ σ j = -1) (h0 : σ 0 = 1) (h4 : σ 4 = 1)
    (hn : σ (dim + 1) = -1) (h : MirroredRel val fin 5 σ w dim z) (gamma : α) (f0 : fin ((faceFlux (fluxOf (Euler.hll gamma dim)) 5 w dim z).getD 0 (Arith.lit 0)))
    {j : Nat} (hj : j = 0 ∨ j = 4) (fj : fin ((faceFlux (fluxOf (Euler.hll gamma dim)) 5 w dim z).getD j (Arith.lit 0))) :
    val ((faceFlux (fluxOf (Euler.hll gamma dim)) 5 w dim z).getD j (Arith.lit 0)) = 0 := by
  have rr : ∀ j < 5, fin (FV.recon (w (moveBy z dim (-2)) j) (w (moveBy z dim (-1)) j) (w z j) (w (moveBy z dim 1) j)).1 →
      fin (FV.recon (w (moveBy z dim (-2)) j) (w (moveBy z dim (-1)) j) (w z j) (w (moveBy z dim 1) j)).2 →
      val (FV.recon (w (moveBy z dim (-2)) j) (w (moveBy z dim (-1)) j) (w z j) (w (moveBy z dim 1) j)).1 =
        σ j * val (FV.recon (w (moveBy z dim (-2)) j) (w (moveBy z dim (-1)) j) (w z j) (w (moveBy z dim 1) j)).2 :=
    fun j hj => recon_rel H (hσ j hj) (h j hj).2 (h j hj).1
  unfold faceFlux at f0 fj ⊢
  dsimp only at f0 fj ⊢
  obtain ⟨l, hl⟩ : ∃ l : Nat → α, ∀ j, (FV.recon (w (moveBy z dim (-2)) j) (w (moveBy z dim (-1)) j) (w z j) (w (moveBy z dim 1) j)).1 = l j := ⟨_, fun _ => rfl⟩
  obtain ⟨r, hr⟩ : ∃ r : Nat → α, ∀ j, (FV.recon (w (moveBy z dim (-2)) j) (w (moveBy z dim (-1)) j) (w z j) (w (moveBy z dim 1) j)).2 = r j := ⟨_, fun _ => rfl⟩
  simp only [hl, hr] at rr f0 fj ⊢
  have el : (List.range 5).map (fun j => l j) = [l 0, l 1, l 2, l 3, l 4] := rfl
  have er : (List.range 5).map (fun j => r j) = [r 0, r 1, r 2, r 3, r 4] := rfl
  rw [el, er] at f0 fj ⊢
  have g0 := rr 0 (by decide)
  have g4 := rr 4 (by decide)
  have gd := rr (dim + 1) (by omega)
  rw [h0] at g0
  rw [h4] at g4
  rw [hn] at gd
  rcases (by omega : dim = 0 ∨ dim = 1 ∨ dim = 2) with rfl | rfl | rfl
  · unfold fluxOf at f0 fj ⊢
    rw [Euler.hll_dim0] at f0 fj ⊢
    have := hll_wall H (hσ 1 (by decide)) (hσ 2 (by decide)) (hσ 3 (by decide)) g0 (rr 1 (by decide)) (rr 2 (by decide)) (rr 3 (by decide)) g4 gd f0
    rcases hj with rfl | rfl
    · exact this.1
    · exact this.2 fj
  · unfold fluxOf at f0 fj ⊢
    rw [Euler.hll_dim1] at f0 fj ⊢
    have := hll_wall H (hσ 1 (by decide)) (hσ 2 (by decide)) (hσ 3 (by decide)) g0 (rr 1 (by decide)) (rr 2 (by decide)) (rr 3 (by decide)) g4 gd f0
    rcases hj with rfl | rfl
    · exact this.1
    · exact this.2 fj
  · unfold fluxOf at f0 fj ⊢
    rw [Euler.hll_dim2] at f0 fj ⊢
    have := hll_wall H (hσ 1 (by decide)) (hσ 2 (by decide)) (hσ 3 (by decide)) g0 (rr 1 (by decide)) (rr 2 (by decide)) (rr 3 (by decide)) g4 gd f0
    rcases hj with rfl | rfl
    · exact this.1
    · exact this.2 fj

/-- Magnetic flux in direction 0 between states that mirror each other as at a conducting wall. -/
theorem field_face {w : Cell → Nat → α} {z : Cell} {σ : Nat → ℝ} (hσ : ∀ j < 6, σ j = 1 ∨ σ j = -1) (h1 : σ 1 = -1) (h2 : σ 2 = -1) (h4 : σ 4 = 1) (h5 : σ 5 = 1)
    (h : MirroredRel val fin 6 σ w 0 z) (c : α) {j : Nat} (hj : 3 ≤ j)
    (fj : fin ((faceFlux (fluxOf (Maxwell.rusanov c 0)) 6 w 0 z).getD j (Arith.lit 0))) :
    val ((faceFlux (fluxOf (Maxwell.rusanov c 0)) 6 w 0 z).getD j (Arith.lit 0)) = 0 := by
  have rr : ∀ j < 6, fin (FV.recon (w (moveBy z 0 (-2)) j) (w (moveBy z 0 (-1)) j) (w z j) (w (moveBy z 0 1) j)).1 →
      fin (FV.recon (w (moveBy z 0 (-2)) j) (w (moveBy z 0 (-1)) j) (w z j) (w (moveBy z 0 1) j)).2 →
      val (FV.recon (w (moveBy z 0 (-2)) j) (w (moveBy z 0 (-1)) j) (w z j) (w (moveBy z 0 1) j)).1 =
        σ j * val (FV.recon (w (moveBy z 0 (-2)) j) (w (moveBy z 0 (-1)) j) (w z j) (w (moveBy z 0 1) j)).2 :=
    fun j hj => recon_rel H (hσ j hj) (h j hj).2 (h j hj).1
  unfold faceFlux at fj ⊢
  dsimp only at fj ⊢
  obtain ⟨l, hl⟩ : ∃ l : Nat → α, ∀ j, (FV.recon (w (moveBy z 0 (-2)) j) (w (moveBy z 0 (-1)) j) (w z j) (w (moveBy z 0 1) j)).1 = l j := ⟨_, fun _ => rfl⟩
  obtain ⟨r, hr⟩ : ∃ r : Nat → α, ∀ j, (FV.recon (w (moveBy z 0 (-2)) j) (w (moveBy z 0 (-1)) j) (w z j) (w (moveBy z 0 1) j)).2 = r j := ⟨_, fun _ => rfl⟩
  simp only [hl, hr] at rr fj ⊢
  have el : (List.range 6).map (fun j => l j) = [l 0, l 1, l 2, l 3, l 4, l 5] := rfl
  have er : (List.range 6).map (fun j => r j) = [r 0, r 1, r 2, r 3, r 4, r 5] := rfl
  rw [el, er] at fj ⊢
  have lz : val (Arith.lit 0 : α) = 0 := by simpa using (H.val_lit (q := 0) (by simp)).2
  have key : ∀ {A B a a' b b' : α}, fin (A * (a' + a) + B * (b' - b)) → (fin a → fin a' → val a = -1 * val a') → (fin b → fin b' → val b = 1 * val b') →
      val (A * (a' + a) + B * (b' - b)) = 0 := by
    intro A B a a' b b' hf ha hb
    obtain ⟨g1, g2, -⟩ := H.add.1 hf
    have g3 := (H.mul.1 g1).2.1
    have g4 := (H.mul.1 g2).2.1
    have z1 : val (a' + a) = 0 := by
      rw [H.add_val g3, ha (H.add.1 g3).2.1 (H.add.1 g3).1, ← H.rd_zero]; congr 1; ring
    have z2 : val (b' - b) = 0 := by
      rw [H.sub_val g4, hb (H.sub.1 g4).2.1 (H.sub.1 g4).1, ← H.rd_zero]; congr 1; ring
    rw [zero_add_val H (zero_mul_val H (.inr z1) g1) hf, zero_mul_val H (.inr z2) g2]
  rcases (by omega : j = 3 ∨ j = 4 ∨ j = 5 ∨ 6 ≤ j) with rfl | rfl | rfl | h
  · exact lz
  · exact key fj (h2 ▸ rr 2 (by decide)) (h4 ▸ rr 4 (by decide))
  · exact key fj (h1 ▸ rr 1 (by decide)) (h5 ▸ rr 5 (by decide))
  · have hn : (fluxOf (Maxwell.rusanov c 0) [l 0, l 1, l 2, l 3, l 4, l 5] [r 0, r 1, r 2, r 3, r 4, r 5]).getD j (Arith.lit 0) = Arith.lit 0 := by
      rw [List.getD_eq_getElem?_getD, List.getElem?_eq_none (by simpa [fluxOf, Maxwell.rusanov] using h)]; rfl
    rw [hn, lz]

/-! ### Ghost cells at walls -/

section
variable {M : Box} {p n : Int} {ws ps : List Nat} {flip : Int → Prop} {w w' : Cell → α}

theorem filled_ghost' (F : Filled M [(0, p), (0, n)] ws flip ps w w') {i : Nat} (hi' : i ∈ ws) {x : Cell}
    (hx : FaceGhost 2 (M ++ [(0, p), (0, n)]) i x) (σ : Int → ℝ) (hσ : ∀ k, flip k → σ k = -1) (hσ' : ∀ k, ¬ flip k → σ k = 1)
    (hin : InBox (M ++ [(0, p), (0, n)]) (mirrorImage 2 (M ++ [(0, p), (0, n)]) i x)) :
    Rel val fin (σ (component x)) (w' x) (w' (mirrorImage 2 (M ++ [(0, p), (0, n)]) i x)) := by
  rw [F.inside _ hin]
  by_cases hf : flip (component x)
  · rw [F.wall_flip i hi' x hx hf, hσ _ hf]; exact Rel.flip H _
  · rw [F.wall_keep i hi' x hx hf, hσ' _ hf]; exact Rel.refl _

/-- Both walls of a direction: the cells around the first and the last face mirror each other. -/
theorem filled_rel (F : Filled M [(0, p), (0, n)] ws flip ps w w') {dim : Nat} (hdim : dim ∈ ws) (hd : dim < M.length)
    (hw : 2 ≤ hi M dim - lo M dim) (σ : Int → ℝ) (hσ : ∀ k, flip k → σ k = -1) (hσ' : ∀ k, ¬ flip k → σ k = 1) {N : Nat} (hN : (N : Int) = n)
    {x : Cell} (hx : InBox (M ++ [(0, p)]) x) :
    (x.getD dim 0 = lo M dim → MirroredRel val fin N (fun j => σ j) (fun x j => w' (x ++ [(j : Int)])) dim x) ∧
    (x.getD dim 0 = hi M dim - 1 → MirroredRel val fin N (fun j => σ j) (fun x j => w' (x ++ [(j : Int)])) dim (moveBy x dim 1)) := by
  have hlen : x.length = M.length + 1 := by rw [hx.length_eq]; simp
  have hdl : dim < (M ++ [((0 : Int), p)]).length := by simp; omega
  have hdl' : dim < (M ++ [((0 : Int), p), (0, n)]).length := by simp; omega
  have hlo : lo (M ++ [((0 : Int), p), (0, n)]) dim = lo M dim := lo_append hd
  have hhi : hi (M ++ [((0 : Int), p), (0, n)]) dim = hi M dim := hi_append hd
  have hin := (inBox_iff _ x).1 hx
  have split : ∀ (a b : Int), slab (M ++ [((0 : Int), p), (0, n)]) dim a b = slab (M ++ [((0 : Int), p)]) dim a b ++ [(0, n)] := by
    intro a b
    unfold slab
    rw [show M ++ [((0 : Int), p), (0, n)] = (M ++ [((0 : Int), p)]) ++ [(0, n)] by simp, List.set_append_left _ _ hdl]
  -- position of `x + s` with component `j` in a slab
  have slabIn : ∀ (a b s : Int) (j : Nat), j < N → a ≤ x.getD dim 0 + s → x.getD dim 0 + s < b →
      InBox (slab (M ++ [((0 : Int), p), (0, n)]) dim a b) (moveBy x dim s ++ [(j : Int)]) := by
    intro a b s j hj h1 h2
    rw [split]
    refine (inBox_snoc (by rw [moveBy_length]; simp [slab, hlen])).2 ⟨?_, by omega, by omega⟩
    rw [inBox_slab hdl]
    refine ⟨by rw [moveBy_length]; exact hin.1, ?_, ?_, ?_⟩
    · rw [moveBy_getD (by omega), if_pos rfl]; exact h1
    · rw [moveBy_getD (by omega), if_pos rfl]; exact h2
    · intro k hk hne
      rw [moveBy_getD (by omega), if_neg hne]; exact hin.2 k hk
  have slabSelf : ∀ B : Box, dim < B.length → slab B dim (lo B dim) (hi B dim) = B := by
    intro B hB
    unfold slab lo hi
    rw [List.getD_eq_getElem?_getD, List.getElem?_eq_getElem hB]
    exact List.set_getElem_self hB
  have inside : ∀ (s : Int) (j : Nat), j < N → lo M dim ≤ x.getD dim 0 + s → x.getD dim 0 + s < hi M dim →
      InBox (M ++ [((0 : Int), p), (0, n)]) (moveBy x dim s ++ [(j : Int)]) := by
    intro s j hj h1 h2
    have := slabIn (lo M dim) (hi M dim) s j hj h1 h2
    rw [← hlo, ← hhi, slabSelf _ hdl'] at this
    exact this
  have comp : ∀ (s : Int) (j : Nat), component (moveBy x dim s ++ [(j : Int)]) = j := by
    intro s j; simp [component]
  have getS : ∀ (s : Int) (j : Nat), (moveBy x dim s ++ [(j : Int)]).getD dim 0 = x.getD dim 0 + s := by
    intro s j
    rw [List.getD_eq_getElem?_getD, List.getElem?_append_left (by rw [moveBy_length]; omega), ← List.getD_eq_getElem?_getD, moveBy_getD (by omega), if_pos rfl]
  have move : ∀ (s r : Int) (j : Nat), moveBy (moveBy x dim s ++ [(j : Int)]) dim r = moveBy x dim (s + r) ++ [(j : Int)] := by
    intro s r j
    rw [moveBy_append (by rw [moveBy_length]; omega), moveBy_moveBy]
  have low : ∀ (s : Int) (j : Nat), j < N → x.getD dim 0 = lo M dim → -2 ≤ s → s < 0 →
      Rel val fin (σ j) (w' (moveBy x dim s ++ [(j : Int)])) (w' (moveBy x dim (-1 - s) ++ [(j : Int)])) := by
    intro s j hj h0 h1 h2
    have hl : LowGhost 2 (M ++ [((0 : Int), p), (0, n)]) dim (moveBy x dim s ++ [(j : Int)]) := by
      unfold LowGhost; rw [hlo]; exact slabIn _ _ _ _ hj (by omega) (by omega)
    have hm : mirrorImage 2 (M ++ [((0 : Int), p), (0, n)]) dim (moveBy x dim s ++ [(j : Int)]) = moveBy x dim (-1 - s) ++ [(j : Int)] := by
      unfold mirrorImage
      rw [if_pos hl, modify_eq_moveBy (by simp [moveBy_length]; omega), move, getS, hlo, h0]
      congr 2; ring
    have := filled_ghost' H F hdim (.inl hl) σ hσ hσ' (by rw [hm]; exact inside _ _ hj (by omega) (by omega))
    rw [hm, comp] at this
    exact this
  have up : ∀ (s : Int) (j : Nat), j < N → x.getD dim 0 = hi M dim - 1 → 1 ≤ s → s ≤ 2 →
      Rel val fin (σ j) (w' (moveBy x dim s ++ [(j : Int)])) (w' (moveBy x dim (1 - s) ++ [(j : Int)])) := by
    intro s j hj h0 h1 h2
    have hl : UpGhost 2 (M ++ [((0 : Int), p), (0, n)]) dim (moveBy x dim s ++ [(j : Int)]) := by
      unfold UpGhost; rw [hhi]; exact slabIn _ _ _ _ hj (by omega) (by omega)
    have hn' : ¬ LowGhost 2 (M ++ [((0 : Int), p), (0, n)]) dim (moveBy x dim s ++ [(j : Int)]) := by
      unfold LowGhost
      rw [inBox_slab hdl', hlo]
      rintro ⟨_, _, h, _⟩
      rw [getS] at h
      omega
    have hm : mirrorImage 2 (M ++ [((0 : Int), p), (0, n)]) dim (moveBy x dim s ++ [(j : Int)]) = moveBy x dim (1 - s) ++ [(j : Int)] := by
      unfold mirrorImage
      rw [if_neg hn', modify_eq_moveBy (by simp [moveBy_length]; omega), move, getS, hhi, h0]
      congr 2; ring
    have := filled_ghost' H F hdim (.inr hl) σ hσ hσ' (by rw [hm]; exact inside _ _ hj (by omega) (by omega))
    rw [hm, comp] at this
    exact this
  have sq : ∀ k, σ k = 1 ∨ σ k = -1 := by
    intro k
    by_cases hf : flip k
    · exact .inr (hσ k hf)
    · exact .inl (hσ' k hf)
  constructor
  · intro h0 j hj
    refine ⟨low (-2) j hj h0 (by omega) (by omega), ?_⟩
    have := low (-1) j hj h0 (by omega) (by omega)
    rw [show (-1 : Int) - -1 = 0 by ring, moveBy_zero] at this
    exact this
  · intro h0 j hj
    simp only [moveBy_moveBy]
    have e1 := up 1 j hj h0 (by omega) (by omega)
    have e2 := up 2 j hj h0 (by omega) (by omega)
    rw [show (1 : Int) - 2 = 1 + -2 by ring] at e2
    rw [show (1 : Int) - 1 = 1 + -1 by ring] at e1
    exact ⟨e2.symm (sq j), e1.symm (sq j)⟩

end

/-! ### No net flow -/

section
variable {M : Box} {p n : Nat} {ws ps : List Nat} {flip : Int → Prop} {w w' : Cell → α}

omit [Arith α] H in
theorem inBox_component {x : Cell} {j : Nat} (hj : j < n) (hx : InBox (M ++ [(0, (p : Int))]) x) : InBox (M ++ [(0, (p : Int)), (0, (n : Int))]) (x ++ [(j : Int)]) := by
  have := (inBox_snoc (B := M ++ [(0, (p : Int))]) (n := (n : Int)) (j := (j : Int)) hx.length_eq).2 ⟨hx, by omega, by omega⟩
  simpa using this

omit H in
theorem noFlow_periodic (F : Filled M [(0, (p : Int)), (0, (n : Int))] ws flip ps w w') {d : Nat} (hdim : d ∈ ps) (hd : d < M.length)
    (hw : 2 ≤ hi M d - lo M d) (φ : Nat → List α → List α → List α) (dx : Nat → α) (j : Nat) : NoFlow val fin M p φ n dx w' j d := by
  intro _
  have hdl : d < (M ++ [((0 : Int), (p : Int))]).length := by simp; omega
  intro x hx h0
  rw [lo_append hd] at h0 ⊢
  dsimp only
  unfold faceRate
  rw [hi_append hd, faceFlux_periodic (g := 2) (le_refl _) hd (by omega) ?_ (φ d) hx h0]
  intro y hy k hk
  have hgh := periodicImage_snoc (n := (n : Int)) (j := (k : Int)) hdl (by omega) (by omega) hy
  have split : M ++ [((0 : Int), (p : Int)), (0, (n : Int))] = (M ++ [((0 : Int), (p : Int))]) ++ [(0, (n : Int))] := by simp
  have e := F.wrap d hdim (y ++ [(k : Int)]) (by rw [split]; exact hgh.1)
  rw [split, hgh.2] at e
  rw [e, F.inside]
  rw [split, ← hgh.2]
  exact periodicImage_interior (by simp; omega) (by rw [lo_append hdl, hi_append hdl, lo_append hd, hi_append hd]; exact hw) hgh.1

theorem noFlow_fluid (F : Filled M [(0, (p : Int)), (0, ((5 : Nat) : Int))] ws isMomentum ps w w') {d : Nat} (hdim : d ∈ ws) (hd : d < M.length) (h3 : d < 3)
    (hw : 2 ≤ hi M d - lo M d) (gamma : α) (dx : Nat → α) {j : Nat} (hj : j = 0 ∨ j = 4)
    (f0 : ∀ x, InBox (M ++ [(0, (p : Int))]) x → fin (faceRate (fun dim => fluxOf (Euler.hll gamma dim)) 5 dx w' 0 d x) ∧
      fin (faceRate (fun dim => fluxOf (Euler.hll gamma dim)) 5 dx w' 0 d (moveBy x d 1))) :
    NoFlow val fin M p (fun dim => fluxOf (Euler.hll gamma dim)) 5 dx w' j d := by
  intro fj
  have σp : ∀ k, isMomentum k → (if k = 1 ∨ k = 2 ∨ k = 3 then (-1 : ℝ) else 1) = -1 := fun k hk => if_pos hk
  have σn : ∀ k, ¬ isMomentum k → (if k = 1 ∨ k = 2 ∨ k = 3 then (-1 : ℝ) else 1) = 1 := fun k hk => if_neg hk
  have flux : ∀ z, MirroredRel val fin 5 (fun j => if (j : Int) = 1 ∨ (j : Int) = 2 ∨ (j : Int) = 3 then (-1 : ℝ) else 1) (fun x j => w' (x ++ [(j : Int)])) d z →
      fin (faceRate (fun dim => fluxOf (Euler.hll gamma dim)) 5 dx w' 0 d z) → fin (faceRate (fun dim => fluxOf (Euler.hll gamma dim)) 5 dx w' j d z) →
      val (faceRate (fun dim => fluxOf (Euler.hll gamma dim)) 5 dx w' j d z) = 0 := by
    intro z hz g0 gj
    refine zero_div_val H ?_ gj
    exact fluid_face H h3 (fun j _ => by split <;> simp) (by simp) (by simp) (if_pos (by omega)) hz gamma (H.div g0).1 hj (H.div gj).1
  refine closed_wall hd hw _ (fun x hx h0 => ?_) (fun x hx h0 => ?_)
  · exact flux x ((filled_rel H F hdim hd hw _ σp σn rfl hx).1 h0) (f0 x hx).1 (fj x hx).1
  · exact flux _ ((filled_rel H F hdim hd hw _ σp σn rfl hx).2 h0) (f0 x hx).2 (fj x hx).2

theorem noFlow_field (F : Filled M [(0, (p : Int)), (0, ((6 : Nat) : Int))] ws isWallField ps w w') (hdim : 0 ∈ ws) (hd : 0 < M.length)
    (hw : 2 ≤ hi M 0 - lo M 0) (c : α) (dx : Nat → α) {j : Nat} (hj : 3 ≤ j) :
    NoFlow val fin M p (fun dim => fluxOf (Maxwell.rusanov c dim)) 6 dx w' j 0 := by
  intro fj
  have σp : ∀ k, isWallField k → (if k = 0 ∨ k = 1 ∨ k = 2 ∨ k = 3 then (-1 : ℝ) else 1) = -1 := fun k hk => if_pos hk
  have σn : ∀ k, ¬ isWallField k → (if k = 0 ∨ k = 1 ∨ k = 2 ∨ k = 3 then (-1 : ℝ) else 1) = 1 := fun k hk => if_neg hk
  have flux : ∀ z, MirroredRel val fin 6 (fun j => if (j : Int) = 0 ∨ (j : Int) = 1 ∨ (j : Int) = 2 ∨ (j : Int) = 3 then (-1 : ℝ) else 1) (fun x j => w' (x ++ [(j : Int)])) 0 z →
      fin (faceRate (fun dim => fluxOf (Maxwell.rusanov c dim)) 6 dx w' j 0 z) → val (faceRate (fun dim => fluxOf (Maxwell.rusanov c dim)) 6 dx w' j 0 z) = 0 := by
    intro z hz gj
    refine zero_div_val H ?_ gj
    exact field_face H (fun j _ => by split <;> simp) (by simp) (by simp) (by simp) (by simp) hz c hj (H.div gj).1
  refine closed_wall hd hw _ (fun x hx h0 => ?_) (fun x hx h0 => ?_)
  · exact flux x ((filled_rel H F hdim hd hw _ σp σn rfl hx).1 h0) (fj x hx).1
  · exact flux _ ((filled_rel H F hdim hd hw _ σp σn rfl hx).2 h0) (fj x hx).2

/-- Finite results come from finite values. -/
theorem stage_fin {φ : Nat → List α → List α → List α} {dx : Nat → α} {dims : List Nat} {t : α} {k j : Nat} {start cur cur' next : Cell → α}
    (S : CompStage M p φ n dx dims t k j start cur cur' next) (hfin : Finite fin M p next j) :
    Finite fin M p start j ∧ (1 ≤ k → Finite fin M p cur j) ∧
      ∀ d ∈ dims, ∀ x, InBox (M ++ [(0, (p : Int))]) x → fin (faceRate φ n dx cur' j d x) ∧ fin (faceRate φ n dx cur' j d (moveBy x d 1)) := by
  have cell : ∀ x, InBox (M ++ [(0, (p : Int))]) x → fin (start (x ++ [(j : Int)])) ∧ (1 ≤ k → fin (cur' (x ++ [(j : Int)]))) ∧
      fin (fvUpdate φ n (fun x j => cur' (x ++ [(j : Int)])) dx dims x j (Arith.lit 0)) := by
    intro x hx
    have hf := hfin x hx
    rw [S.next x hx] at hf
    rcases (by omega : k = 0 ∨ k = 1 ∨ 2 ≤ k) with rfl | rfl | hk
    · obtain ⟨f0, f1, -⟩ := H.add.1 hf
      exact ⟨f0, by omega, (H.mul.1 f1).2.1⟩
    · obtain ⟨f1, f2, -⟩ := H.add.1 hf
      obtain ⟨f3, f4, -⟩ := H.add.1 f1
      exact ⟨(H.mul.1 f3).2.1, fun _ => (H.mul.1 f4).2.1, (H.mul.1 f2).2.1⟩
    · obtain ⟨k, rfl⟩ : ∃ k', k = k' + 2 := ⟨k - 2, by omega⟩
      obtain ⟨f0, f2, -⟩ := H.add.1 (H.div hf).1
      obtain ⟨fc, f4, -⟩ := H.add.1 (H.mul.1 f2).2.1
      exact ⟨f0, fun _ => fc, (H.mul.1 f4).2.1⟩
  refine ⟨fun x hx => (cell x hx).1, fun hk x hx => by rw [← S.inside x hx]; exact (cell x hx).2.1 hk, fun d hd x hx => ?_⟩
  exact (fvUpdate_near H φ n (fun x j => cur' (x ++ [(j : Int)])) dx x j dims (Arith.lit 0) (cell x hx).2.2).2.1 d hd

end
end
end QK
