import Verif.Props.Examples
import Verif.Spec.Sheet
/-
C88: what the plasma programs start from, in exact arithmetic.
-/
namespace QK.Props
open QK Spec Solve GemChallenge

/-- Coordinates of cell centres on a grid as constructed. -/
theorem centre_make {range : Range} {s w : List ℝ} {g : Rectilinear ℝ} (h : Rectilinear.make range s w = .ok g) {i : Nat} {d : Int × Int} {si wi : ℝ}
    (hd : range.dims[i]? = some d) (hs : s[i]? = some si) (hw : w[i]? = some wi) (x : Cell) :
    centre g x i = si + ((x.getD i 0 : ℤ) + 1 / 2) * (wi / (d.2 - d.1)) := by
  obtain ⟨_, h2, _, _, _, _, h7⟩ := Rectilinear.make_fields h
  have hi : i < range.dims.length := (List.getElem?_eq_some_iff.1 hd).1
  have e1 : g.startxs.getD i (Arith.lit 0) = si := by
    rw [h2, List.getD_eq_getElem?_getD, List.getElem?_take_of_lt hi, hs]; rfl
  have e2 : g.dxs.getD i (Arith.lit 0) = wi / Arith.ofInt (d.2 - d.1) := by
    rw [List.getD_eq_getElem?_getD, h7 i d wi hd hw]; rfl
  unfold centre
  rw [e1, e2]
  simp [real_lit, real_ofInt]

theorem gem_constants : SheetConstants (GemConstants.make : GemConstants ℝ).n0 (GemConstants.make : GemConstants ℝ).Te (GemConstants.make : GemConstants ℝ).Ti
    (GemConstants.make : GemConstants ℝ).B0 ∧ 0 < (GemConstants.make : GemConstants ℝ).n0 := by
  have hB : ∀ {P : ℝ}, 0 < P → (Arith.sqrt P : ℝ) ^ 2 / (2 * muZero) = P / (2 * muZero) ∧ 0 < (Arith.sqrt P : ℝ) := by
    intro P hP
    have : (Arith.sqrt P : ℝ) = Real.sqrt P := rfl
    rw [this, Real.sq_sqrt hP.le]
    exact ⟨rfl, Real.sqrt_pos.2 hP⟩
  have key : ∀ K : GemConstants ℝ, K = GemConstants.make → SheetConstants K.n0 K.Te K.Ti K.B0 ∧ 0 < K.n0 := by
    rintro K rfl
    have hP : (0 : ℝ) < Arith.ofInt 2 * Arith.lit (125663706 / 10 ^ 14) * ((GemConstants.make : GemConstants ℝ).n0 * ((GemConstants.make : GemConstants ℝ).Te + (GemConstants.make : GemConstants ℝ).Ti)) := by
      simp only [GemConstants.make, real_lit, real_ofInt]
      norm_num
    obtain ⟨b1, b2⟩ := hB hP
    refine ⟨⟨?_, ?_, ?_, ?_, b2⟩, ?_⟩
    · simp only [GemConstants.make, real_lit, real_ofInt, lightC, chargeE, massE, epsilon0]
      norm_num
    · simp only [GemConstants.make, real_lit, real_ofInt, lightC, massE]
      norm_num
    · simp only [GemConstants.make, real_lit, real_ofInt]
      norm_num
    · refine b1.trans ?_
      simp only [real_lit, real_ofInt, muZero]
      push_cast
      ring
    · simp only [GemConstants.make, real_lit, real_ofInt]
      norm_num
  exact key _ rfl

section
variable {g : Rectilinear ℝ} {m0 : Mgr ℝ} {q : State ℝ}

/-- The state that `gem_challenge::solve` gives with the constants of the programs, except for the width of the domain. -/
theorem sheet_start {K : GemConstants ℝ} {L : ℝ} (hK : K = { (GemConstants.make : GemConstants ℝ) with Lx := L }) (hmade : ∃ (range : Range) (s w : List ℝ), Rectilinear.make range s w = .ok g)
    (hne : g.rng.dims ≠ []) (hpos : Pos g.rng.dims) (h3 : g.rng.dims.length ≤ 3)
    (hic : gem (initial K) [electrons.q, ions.q, fields.q] (Mgr.make g) = .ok () m0) (he : m0.Stores electrons.q q.e) (hi : m0.Stores ions.q q.i)
    (hf : m0.Stores fields.q q.f) {x : Cell} (hx : InBox (g.rng.dims ++ [(0, 1)]) x) :
    SheetAt K.n0 K.Te K.Ti K.B0 L (centre g x 0) (if 1 < g.rng.dims.length then centre g x 1 else 0)
      (fun k => q.e (x ++ [(k : Int)])) (fun k => q.i (x ++ [(k : Int)])) (fun k => q.f (x ++ [(k : Int)])) := by
  obtain ⟨C, hn0⟩ := gem_constants
  have hG := (C33_new_manager gem_consistent gem_points (g := g) hne hpos).1
  obtain ⟨range, s', w', hmake⟩ := hmade
  have R := gem_vars K (mults := [0, 0]) rfl
  have mem : ∀ {id}, id ∈ electrons.ids ++ (ions.ids ++ fields.ids) → gemIds id := fun h => h
  have c1 : K.gamma = 5 / 3 := by rw [hK]; simp [GemConstants.make, real_lit]
  have c2 : K.n0 = (GemConstants.make : GemConstants ℝ).n0 := by rw [hK]
  have c3 : K.n1 = K.n0 / 5 := by
    rw [hK]; simp only [GemConstants.make, real_lit]; push_cast; ring
  have c4 : K.me = massE := by rw [hK]; simp only [GemConstants.make, real_lit, massE]; norm_num
  have c5 : K.mi = 25 * massE := by rw [hK]; simp only [GemConstants.make, real_lit, massE]; norm_num
  have c6 : K.e = chargeE := by rw [hK]; simp only [GemConstants.make, real_lit, chargeE]; norm_num
  have c7 : K.lam = 1 / 2 := by rw [hK]; simp only [GemConstants.make, real_lit]; norm_num
  have c8 : K.Lx = L := by rw [hK]
  have hme : 0 < massE := by norm_num [massE]
  obtain ⟨m', k1, k2, k3, k4, k5, qe, qi, B, k6, k7, k8, k9⟩ := C71_gem (initial K) (show K.gamma ≠ 1 by rw [c1]; norm_num) (show 0 < K.n0 by rw [c2]; exact hn0)
    (show 0 ≤ K.n1 by rw [c3, c2]; positivity) (show 0 < K.me by rw [c4]; exact hme) (show 0 < K.mi by rw [c5]; positivity) hG laid_new (Rectilinear.make_sized hmake) h3
    (oe := electrons.q) (oi := ions.q) (of := fields.q)
    (mem (List.mem_append_left _ (electrons.at_mem 0))) (mem (List.mem_append_right _ (List.mem_append_left _ (ions.at_mem 0))))
    (mem (List.mem_append_right _ (List.mem_append_right _ (fields.at_mem 0)))) (R.ei (electrons.at_mem 0) (ions.at_mem 0))
    (R.ef (electrons.at_mem 0) (fields.at_mem 0)) (R.if' (ions.at_mem 0) (fields.at_mem 0)) (by decide) rfl rfl (by decide) (by decide) (by decide) []
  rw [hic] at k1; cases k1
  have hgr : m0.grid = g := k4.grid
  have hx2 : InBox (grow 2 g.rng.dims ++ [(0, 1)]) x := inBox_interior (by decide) hx
  have ve : ∀ k : Nat, k < 5 → q.e (x ++ [(k : Int)]) = gasAt (qe x) k := fun k hk => setTo_field k6 he hx2 hk (mesh_in_array (p := 1) rfl (by rw [hgr]; exact hx) hk)
  have vi : ∀ k : Nat, k < 5 → q.i (x ++ [(k : Int)]) = gasAt (qi x) k := fun k hk => setTo_field k7 hi hx2 hk (mesh_in_array (p := 1) rfl (by rw [hgr]; exact hx) hk)
  have vf : ∀ k : Nat, k < 6 → q.f (x ++ [(k : Int)]) = emState 0 (B x) k := fun k hk => setTo_field k8 hf hx2 hk (mesh_in_array (p := 1) rfl (by rw [hgr]; exact hx) hk)
  obtain ⟨a1, a2, a3, a4, a5, a6, a7, a8, a9, a10, a11, a12, a13⟩ := k9 x
  simp only [GemChallenge.initial, c1, c3, c4, c5, c6, c7, c8] at a1 a2 a7 a8 a9 a10 a11 a12
  have dot : ∀ {Q : Gas}, Q.mom 0 = 0 → Q.mom 1 = 0 → Q.pressure (5 / 3) = (5 / 3 - 1) * (Q.en - Q.mom 2 ^ 2 / Q.rho / 2) := by
    intro Q h0 h1
    simp only [Gas.pressure, vdot, h0, h1]
    ring
  exact {
    rho_e := (ve 0 (by decide)).trans a1
    rho_i := (vi 0 (by decide)).trans a2
    mom_e := ⟨(ve 1 (by decide)).trans a3, (ve 2 (by decide)).trans a4, by rw [ve 3 (by decide)]; exact a7⟩
    mom_i := ⟨(vi 1 (by decide)).trans a5, (vi 2 (by decide)).trans a6, by rw [vi 3 (by decide)]; exact a8⟩
    en_e := by rw [ve 4 (by decide), ve 3 (by decide), ve 0 (by decide)]; exact (dot a3 a4).symm.trans a9
    en_i := by rw [vi 4 (by decide), vi 3 (by decide), vi 0 (by decide)]; exact (dot a5 a6).symm.trans a10
    electric := ⟨vf 0 (by decide), vf 1 (by decide), vf 2 (by decide)⟩
    bx := (vf 3 (by decide)).trans a11
    bY := (vf 4 (by decide)).trans a12
    bz := (vf 5 (by decide)).trans a13 }

/-- **C88** (exact arithmetic) The program of main.cpp starts from the current sheet of a plasma in pressure balance, on a domain of width `L` = 3.14159263 ion
lengths and twice that in the second direction: in cell `i`, `j` it has the state of the sheet at the centre of that cell. -/
theorem C88_gem {nx : Int} (hnx : 2 ≤ nx) (hg : grid GemConstants.make nx = .ok g)
    (hic : gem (initial GemConstants.make) [electrons.q, ions.q, fields.q] (Mgr.make g) = .ok () m0) (he : m0.Stores electrons.q q.e) (hi : m0.Stores ions.q q.i)
    (hf : m0.Stores fields.q q.f) :
    ∃ n0 Te Ti B0 : ℝ, SheetConstants n0 Te Ti B0 ∧ ∀ i j : Int, 0 ≤ i → i < nx → 0 ≤ j → j < 2 * nx →
      SheetAt n0 Te Ti B0 3.14159263 (3.14159263 * ((i + 1 / 2) / nx - 1 / 2)) (2 * 3.14159263 * ((j + 1 / 2) / (2 * nx) - 1 / 2))
        (fun k => q.e [i, j, 0, k]) (fun k => q.i [i, j, 0, k]) (fun k => q.f [i, j, 0, k]) := by
  have hd : g.rng.dims = [(0, nx), (0, 2 * nx)] ∧ Rectilinear.make (Range.setup [(0, nx), (0, 2 * nx)]) [-(GemConstants.make : GemConstants ℝ).Lx / Arith.lit 2, -(GemConstants.make : GemConstants ℝ).Lx]
      [(GemConstants.make : GemConstants ℝ).Lx, Arith.ofInt 2 * (GemConstants.make : GemConstants ℝ).Lx] = .ok g := by
    unfold grid at hg
    rw [show Range.ofLengths 2 [nx, 2 * nx] = .ok (Range.setup [(0, nx), (0, 2 * nx)]) from rfl, Res.ok_bind] at hg
    exact ⟨by rw [(Rectilinear.make_fields hg).1]; rfl, hg⟩
  obtain ⟨hd, hmake⟩ := hd
  have hL : (GemConstants.make : GemConstants ℝ).Lx = 3.14159263 := by
    simp only [GemConstants.make, real_lit, real_ofInt]; norm_num
  have hn : (nx : ℝ) ≠ 0 := by
    have : nx ≠ 0 := by omega
    exact_mod_cast this
  refine ⟨_, _, _, _, gem_constants.1, ?_⟩
  intro i j hi0 hi1 hj0 hj1
  have hpos : Pos g.rng.dims := by
    rw [hd]; intro d hd'; simp at hd'; rcases hd' with rfl | rfl <;> simp <;> omega
  have := sheet_start (K := GemConstants.make) (L := (GemConstants.make : GemConstants ℝ).Lx) rfl ⟨_, _, _, hmake⟩ (by rw [hd]; simp) hpos (by rw [hd]; simp) hic he hi hf (x := [i, j, 0])
    (by rw [hd]; simp [InBox]; omega)
  have e0 : centre g [i, j, 0] 0 = 3.14159263 * ((i + 1 / 2) / nx - 1 / 2) := by
    rw [centre_make hmake (i := 0) rfl rfl rfl, hL]
    simp [real_lit]; field_simp; ring
  have e1 : centre g [i, j, 0] 1 = 2 * 3.14159263 * ((j + 1 / 2) / (2 * nx) - 1 / 2) := by
    rw [centre_make hmake (i := 1) rfl rfl rfl, hL]
    simp [real_ofInt]; field_simp; ring
  rw [if_pos (by rw [hd]; simp), e0, e1, hL] at this
  exact this

/-- **C88** (exact arithmetic) harris_current_sheet likewise, in one dimension, on a domain of width 4 · 3.14159263. -/
theorem C88_harris {nx : Int} (hnx : 2 ≤ nx) (hg : HarrisCurrentSheet.grid HarrisCurrentSheet.constants nx = .ok g)
    (hic : gem (initial HarrisCurrentSheet.constants) [electrons.q, ions.q, fields.q] (Mgr.make g) = .ok () m0) (he : m0.Stores electrons.q q.e)
    (hi : m0.Stores ions.q q.i) (hf : m0.Stores fields.q q.f) :
    ∃ n0 Te Ti B0 : ℝ, SheetConstants n0 Te Ti B0 ∧ ∀ i : Int, 0 ≤ i → i < nx →
      SheetAt n0 Te Ti B0 (4 * 3.14159263) (4 * 3.14159263 * ((i + 1 / 2) / nx - 1 / 2)) 0
        (fun k => q.e [i, 0, k]) (fun k => q.i [i, 0, k]) (fun k => q.f [i, 0, k]) := by
  have hd : g.rng.dims = [(0, nx)] ∧ Rectilinear.make (Range.setup [(0, nx)]) [-(HarrisCurrentSheet.constants : GemConstants ℝ).Lx / Arith.lit 2]
      [(HarrisCurrentSheet.constants : GemConstants ℝ).Lx] = .ok g := by
    unfold HarrisCurrentSheet.grid at hg
    rw [show Range.ofLengths 1 [nx] = .ok (Range.setup [(0, nx)]) from rfl, Res.ok_bind] at hg
    exact ⟨by rw [(Rectilinear.make_fields hg).1]; rfl, hg⟩
  obtain ⟨hd, hmake⟩ := hd
  have hL : (HarrisCurrentSheet.constants : GemConstants ℝ).Lx = 4 * 3.14159263 := by
    simp only [HarrisCurrentSheet.constants, real_lit, real_ofInt]; norm_num
  have hn : (nx : ℝ) ≠ 0 := by
    have : nx ≠ 0 := by omega
    exact_mod_cast this
  refine ⟨_, _, _, _, gem_constants.1, ?_⟩
  intro i hi0 hi1
  have hpos : Pos g.rng.dims := by
    rw [hd]; intro d hd'; simp at hd'; subst hd'; simp; omega
  have := sheet_start (K := HarrisCurrentSheet.constants) (L := (HarrisCurrentSheet.constants : GemConstants ℝ).Lx) rfl ⟨_, _, _, hmake⟩ (by rw [hd]; simp) hpos (by rw [hd]; simp) hic he hi hf (x := [i, 0])
    (by rw [hd]; simp [InBox]; omega)
  have e0 : centre g [i, 0] 0 = 4 * 3.14159263 * ((i + 1 / 2) / nx - 1 / 2) := by
    rw [centre_make hmake (i := 0) rfl rfl rfl, hL]
    simp [real_lit]; field_simp; ring
  rw [if_neg (by rw [hd]; simp), e0, hL] at this
  exact this

/-- **C88** (exact arithmetic) two_fluid_brio_wu starts from two gases at rest with gamma 2: number densities 1 and 1/8 (masses 1/10 and 1), pressures 1 and 1/10, magnetic field
`(3/4, ±1, 0)`, to the left and to the right of the middle of the tube from -1/2 to 1/2. -/
theorem C88_brio {nx : Int} (hnx : 2 ≤ nx) (hg : TwoFluidBrioWu.grid nx = .ok g)
    (hic : brioWu TwoFluidBrioWu.initial [electrons.q, ions.q, fields.q] (Mgr.make g) = .ok () m0) (he : m0.Stores electrons.q q.e)
    (hi : m0.Stores ions.q q.i) (hf : m0.Stores fields.q q.f) {i : Int} (hi0 : 0 ≤ i) (hi1 : i < nx) :
    (∀ k : Nat, k < 5 → q.e [i, 0, k] = (if 2 * i + 1 < nx then [1 / 10, 0, 0, 0, 1] else [1 / 80, 0, 0, 0, 1 / 10] : List ℝ).getD k 0) ∧
    (∀ k : Nat, k < 5 → q.i [i, 0, k] = (if 2 * i + 1 < nx then [1, 0, 0, 0, 1] else [1 / 8, 0, 0, 0, 1 / 10] : List ℝ).getD k 0) ∧
    (∀ k : Nat, k < 6 → q.f [i, 0, k] = (if 2 * i + 1 < nx then [0, 0, 0, 3 / 4, 1, 0] else [0, 0, 0, 3 / 4, -1, 0] : List ℝ).getD k 0) := by
  have hd : g.rng.dims = [(0, nx)] ∧ Rectilinear.make (Range.setup [(0, nx)]) [Arith.lit (-1 / 2)] [(Arith.lit 1 : ℝ)] = .ok g := by
    unfold TwoFluidBrioWu.grid at hg
    rw [show Range.ofLengths 1 [nx] = .ok (Range.setup [(0, nx)]) from rfl, Res.ok_bind] at hg
    exact ⟨by rw [(Rectilinear.make_fields hg).1]; rfl, hg⟩
  obtain ⟨hd, hmake⟩ := hd
  have hn : (0 : ℝ) < nx := by
    have : 0 < nx := by omega
    exact_mod_cast this
  have hpos : Pos g.rng.dims := by
    rw [hd]; intro d hd'; simp at hd'; subst hd'; simp; omega
  have hG := (C33_new_manager gem_consistent gem_points (g := g) (by rw [hd]; simp) hpos).1
  have R := gem_vars (GemConstants.make : GemConstants ℝ) (mults := [0, 0]) rfl
  have mem : ∀ {id}, id ∈ electrons.ids ++ (ions.ids ++ fields.ids) → gemIds id := fun h => h
  obtain ⟨m', k1, k2, k3, k4, k5, k6, k7, k8⟩ := brio_all (TwoFluidBrioWu.initial (α := ℝ)) hG laid_new (Rectilinear.make_sized hmake) (by show g.rng.dims.length ≤ 3; rw [hd]; simp)
    (oe := electrons.q) (oi := ions.q) (of := fields.q)
    (mem (List.mem_append_left _ (electrons.at_mem 0))) (mem (List.mem_append_right _ (List.mem_append_left _ (ions.at_mem 0))))
    (mem (List.mem_append_right _ (List.mem_append_right _ (fields.at_mem 0)))) (R.ei (electrons.at_mem 0) (ions.at_mem 0))
    (R.ef (electrons.at_mem 0) (fields.at_mem 0)) (R.if' (ions.at_mem 0) (fields.at_mem 0)) (by decide) rfl rfl (by decide) rfl (by decide)
  rw [hic] at k1; cases k1
  have hgr : m0.grid = g := k4.grid
  have hx : InBox (g.rng.dims ++ [(0, 1)]) [i, 0] := by rw [hd]; simp [InBox]; omega
  have hl : Init.BrioWu.left g [i, 0] = true ↔ 2 * i + 1 < nx := by
    unfold Init.BrioWu.left
    rw [real_lt]
    have : centre g [i, 0] 0 = ((2 * i + 1 : ℤ) - nx : ℝ) / (2 * nx) := by
      rw [centre_make hmake (i := 0) rfl rfl rfl]
      simp [real_lit]; field_simp; ring
    have e0 : (Arith.lit 0 : ℝ) = 0 := by simp [real_lit]
    rw [e0]
    show centre g [i, 0] 0 < 0 ↔ _
    rw [this, div_neg_iff]
    constructor
    · rintro (⟨_, h⟩ | ⟨h, _⟩)
      · linarith
      · have : ((2 * i + 1 : ℤ) : ℝ) < nx := by linarith
        exact_mod_cast this
    · intro h
      have : ((2 * i + 1 : ℤ) : ℝ) < nx := by exact_mod_cast h
      exact .inr ⟨by linarith, by linarith⟩
  refine ⟨fun k hk => (setTo_field k5 he hx hk (mesh_in_array (p := 1) rfl (by rw [hgr]; exact hx) hk)).trans ?_,
    fun k hk => (setTo_field k6 hi hx hk (mesh_in_array (p := 1) rfl (by rw [hgr]; exact hx) hk)).trans ?_,
    fun k hk => (setTo_field k7 hf hx hk (mesh_in_array (p := 1) rfl (by rw [hgr]; exact hx) hk)).trans ?_⟩
  all_goals
    simp only [Init.BrioWu.rhoE, Init.BrioWu.rhoI, Init.BrioWu.enE, Init.BrioWu.byF, Init.BrioWu.pMult, Mgr.make, hl, TwoFluidBrioWu.initial, TwoFluidBrioWu.gamma, TwoFluidBrioWu.me, TwoFluidBrioWu.mi, real_lit]
    interval_cases k <;> by_cases hc : 2 * i + 1 < nx <;> simp [hc] <;> norm_num

end

/-- **C88** The sheet without perturbation solves Ampère's law: the derivative of the field along `y` is the magnetic constant times the current of both fluids. -/
theorem C88_ampere {n0 Te Ti B0 : ℝ} (C : SheetConstants n0 Te Ti B0) (kx ky x y : ℝ) :
    HasDerivAt (fun t => sheetY B0 (1 / 2) 0 kx ky t y) (muZero * (sheetJ n0 (-chargeE) Te B0 (1 / 2) x + sheetJ n0 chargeE Ti B0 (1 / 2) x)) x := by
  have hc := Real.cosh_pos (x / (1 / 2))
  have hq : chargeE ≠ 0 := by norm_num [chargeE]
  have hmu : muZero ≠ 0 := by norm_num [muZero]
  have hB := C.sense.ne'
  have h1 : HasDerivAt (fun t : ℝ => t / (1 / 2)) (1 / (1 / 2)) x := (hasDerivAt_id x).div_const _
  have h2 : HasDerivAt (fun t : ℝ => Real.sinh (t / (1 / 2)) / Real.cosh (t / (1 / 2))) _ x := h1.sinh.div h1.cosh hc.ne'
  have h3 := h2.const_mul B0
  unfold sheetY
  simp only [Real.tanh_eq_sinh_div_cosh, zero_mul, sub_zero]
  refine h3.congr_deriv ?_
  have hs := Real.cosh_sq (x / (1 / 2))
  have hb : B0 ^ 2 = 2 * muZero * (n0 * Te + n0 * Ti) := by
    rw [← C.balance]; field_simp
  unfold sheetJ
  have hw : B0 * ((Real.cosh (x / (1 / 2)) * (1 / (1 / 2)) * Real.cosh (x / (1 / 2)) - Real.sinh (x / (1 / 2)) * (Real.sinh (x / (1 / 2)) * (1 / (1 / 2)))) / Real.cosh (x / (1 / 2)) ^ 2) =
      2 * B0 / Real.cosh (x / (1 / 2)) ^ 2 := by
    rw [show Real.cosh (x / (1 / 2)) * (1 / (1 / 2)) * Real.cosh (x / (1 / 2)) - Real.sinh (x / (1 / 2)) * (Real.sinh (x / (1 / 2)) * (1 / (1 / 2))) =
      2 * (Real.cosh (x / (1 / 2)) ^ 2 - Real.sinh (x / (1 / 2)) ^ 2) by ring, hs]
    ring
  rw [hw]
  generalize Real.cosh (x / (1 / 2)) = ch at *
  field_simp
  rw [hb]; ring

/-- **C88** The constants used for the magnetic field and for the velocity of light agree to within 1e-8. -/
theorem C88_units : |lightC ^ 2 * epsilon0 * muZero - 1| < 1e-8 := by
  unfold lightC epsilon0 muZero
  rw [abs_lt]; constructor <;> norm_num

/-- **C88** All steps of the program of main.cpp together last 40 inverse cyclotron frequencies of the ions, those of harris_current_sheet one. -/
theorem C88_time {numFrames numSteps : Nat} (hf : 0 < numFrames) (hs : 0 < numSteps) : ∃ n0 Te Ti B0 : ℝ, SheetConstants n0 Te Ti B0 ∧
    (numFrames * numSteps) * timeDt GemConstants.make numFrames numSteps = 40 / (chargeE * B0 / (25 * massE)) ∧
    (numFrames * numSteps) * HarrisCurrentSheet.timeDt HarrisCurrentSheet.constants numFrames numSteps = 1 / (chargeE * B0 / (25 * massE)) := by
  refine ⟨_, _, _, _, gem_constants.1, ?_⟩
  have h1 : (numFrames : ℝ) ≠ 0 := by positivity
  have h2 : (numSteps : ℝ) ≠ 0 := by positivity
  have w1 : (GemConstants.make : GemConstants ℝ).wci = chargeE * (GemConstants.make : GemConstants ℝ).B0 / (25 * massE) := by
    show (Arith.lit _ : ℝ) * (GemConstants.make : GemConstants ℝ).B0 / _ = _
    simp only [real_lit, chargeE, massE]; norm_num
  have w2 : (HarrisCurrentSheet.constants : GemConstants ℝ).wci = (GemConstants.make : GemConstants ℝ).wci := rfl
  unfold timeDt HarrisCurrentSheet.timeDt
  rw [w2, w1]
  simp only [real_lit, real_ofInt]
  push_cast
  constructor <;> field_simp

theorem dxAt_make {range : Range} {s w : List ℝ} {g : Rectilinear ℝ} (h : Rectilinear.make range s w = .ok g) {i : Nat} {d : Int × Int} {wi : ℝ}
    (hd : range.dims[i]? = some d) (hw : w[i]? = some wi) : g.dxAt i = wi / (d.2 - d.1) := by
  obtain ⟨_, _, _, _, _, _, h7⟩ := Rectilinear.make_fields h
  unfold Rectilinear.dxAt
  rw [List.getD_eq_getElem?_getD, h7 i d wi hd hw]
  simp [real_ofInt]

/-- **C88** (exact arithmetic) Widths of the cells, and centres where an initial condition of C85, C86 uses them: the domains of the programs are the stated ones, divided
evenly. -/
theorem C88_cells {nx ny nz : Int} {g : Rectilinear ℝ} :
    (SodShockTube.grid nx ny = .ok g → g.dxAt 0 = 1 / nx ∧ g.dxAt 1 = 1 / ny ∧ ∀ i j : Int, centre g [i, j, 0] 0 = -1 / 2 + (i + 1 / 2) / nx) ∧
    (Wave1D.grid nx ny nz = .ok g → g.dxAt 0 = 1 / nx ∧ g.dxAt 1 = 1 / ny ∧ g.dxAt 2 = 1 / nz ∧ ∀ i j k : Int, centre g [i, j, k, 0] 2 = -1 / 2 + (k + 1 / 2) / nz) ∧
    (TwoFluidBrioWu.grid nx = .ok g → g.dxAt 0 = 1 / nx) ∧
    (HarrisCurrentSheet.grid HarrisCurrentSheet.constants nx = .ok g → g.dxAt 0 = 4 * 3.14159263 / nx) ∧
    (grid GemConstants.make nx = .ok g → g.dxAt 0 = 3.14159263 / nx ∧ g.dxAt 1 = 2 * 3.14159263 / (2 * nx)) := by
  refine ⟨?_, ?_, ?_, ?_, ?_⟩
  · intro h
    unfold SodShockTube.grid at h
    rw [show Range.ofLengths 2 [nx, ny, 2] = .ok (Range.setup [(0, nx), (0, ny)]) from rfl, Res.ok_bind] at h
    refine ⟨?_, ?_, fun i j => ?_⟩
    · rw [dxAt_make h (i := 0) rfl rfl]; simp [real_lit]
    · rw [dxAt_make h (i := 1) rfl rfl]; simp [real_lit]
    · rw [centre_make h (i := 0) rfl rfl rfl]; simp [real_lit]; ring
  · intro h
    unfold Wave1D.grid at h
    rw [show Range.ofLengths 3 [nx, ny, nz] = .ok (Range.setup [(0, nx), (0, ny), (0, nz)]) from rfl, Res.ok_bind] at h
    refine ⟨?_, ?_, ?_, fun i j k => ?_⟩
    · rw [dxAt_make h (i := 0) rfl rfl]; simp [real_lit]
    · rw [dxAt_make h (i := 1) rfl rfl]; simp [real_lit]
    · rw [dxAt_make h (i := 2) rfl rfl]; simp [real_lit]
    · rw [centre_make h (i := 2) rfl rfl rfl]; simp [real_lit]; ring
  · intro h
    unfold TwoFluidBrioWu.grid at h
    rw [show Range.ofLengths 1 [nx] = .ok (Range.setup [(0, nx)]) from rfl, Res.ok_bind] at h
    rw [dxAt_make h (i := 0) rfl rfl]; simp [real_lit]
  · intro h
    unfold HarrisCurrentSheet.grid at h
    rw [show Range.ofLengths 1 [nx] = .ok (Range.setup [(0, nx)]) from rfl, Res.ok_bind] at h
    rw [dxAt_make h (i := 0) rfl rfl]; simp [HarrisCurrentSheet.constants, real_lit, real_ofInt]; norm_num
  · intro h
    unfold grid at h
    rw [show Range.ofLengths 2 [nx, 2 * nx] = .ok (Range.setup [(0, nx), (0, 2 * nx)]) from rfl, Res.ok_bind] at h
    refine ⟨?_, ?_⟩
    · rw [dxAt_make h (i := 0) rfl rfl]; simp [GemConstants.make, real_lit, real_ofInt]; norm_num
    · rw [dxAt_make h (i := 1) rfl rfl]; simp [GemConstants.make, real_lit, real_ofInt]; norm_num

/-- The hypotheses hold: the programs as configured. -/
example : ∃ (g : Rectilinear ℝ) (m0 : Mgr ℝ) (q : State ℝ), TwoFluidBrioWu.grid 100 = .ok g ∧
    brioWu TwoFluidBrioWu.initial [electrons.q, ions.q, fields.q] (Mgr.make g) = .ok () m0 ∧ m0.Stores electrons.q q.e ∧ q.e [49, 0, 0] = 1 / 10 ∧ q.e [50, 0, 0] = 1 / 80 := by
  obtain ⟨g, P, m0, hP, hg, _, hic, _, _, ⟨s, _, H, _⟩, _⟩ := C84_brio (α := ℝ) (nx := 100) (by decide) (fun _ => true) 100 10
  have he : m0.Stores electrons.q (s 0).e := by have := H.e; rwa [show P.e.at 0 = electrons.q from hP.electrons] at this
  have hi : m0.Stores ions.q (s 0).i := by have := H.i; rwa [show P.i.at 0 = ions.q from hP.ions] at this
  have hf : m0.Stores fields.q (s 0).f := by have := H.f; rwa [show P.f.at 0 = fields.q from hP.field] at this
  refine ⟨g, m0, s 0, hg, hic, he, ?_, ?_⟩
  · simpa using (C88_brio (by decide) hg hic he hi hf (i := 49) (by decide) (by decide)).1 0 (by decide)
  · simpa using (C88_brio (by decide) hg hic he hi hf (i := 50) (by decide) (by decide)).1 0 (by decide)

example : ∃ (g : Rectilinear ℝ) (m0 : Mgr ℝ) (q : State ℝ), grid GemConstants.make 256 = .ok g ∧
    gem (initial GemConstants.make) [electrons.q, ions.q, fields.q] (Mgr.make g) = .ok () m0 ∧ m0.Stores fields.q q.f ∧ q.f [3, 500, 0, 0] = 0 := by
  obtain ⟨g, P, m0, hP, hg, _, hic, _, _, s, _, H, _⟩ := C81_gem (α := ℝ) (nx := 256) (by decide) (fun _ => true) 1000 125
  have he : m0.Stores electrons.q (s 0).e := by have := H.e; rwa [show P.e.at 0 = electrons.q from hP.electrons] at this
  have hi : m0.Stores ions.q (s 0).i := by have := H.i; rwa [show P.i.at 0 = ions.q from hP.ions] at this
  have hf : m0.Stores fields.q (s 0).f := by have := H.f; rwa [show P.f.at 0 = fields.q from hP.field] at this
  obtain ⟨_, _, _, _, _, h⟩ := C88_gem (by decide) hg hic he hi hf
  exact ⟨g, m0, s 0, hg, hic, hf, (h 3 500 (by decide) (by decide) (by decide) (by decide)).electric.1⟩

example : ∃ n0 Te Ti B0 : ℝ, SheetConstants n0 Te Ti B0 := ⟨_, _, _, _, gem_constants.1⟩

end QK.Props
