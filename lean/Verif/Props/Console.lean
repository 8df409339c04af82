import Verif.Proofs.Console
import Verif.Props.Examples
import Verif.Props.Numbers
/- Property C120: terminal and time measurement of the programs. -/
namespace QK.Props
open QK Spec Timed SM Solve GemChallenge

section
variable {α : Type} [Arith α] (w : Wording) (clock : Nat → Int) (canOpen : Nat → Bool)

/-! ## Any program of the shape of the examples -/

/-- **C120** Printing and time measurement do not change what a program computes and writes to files, whatever the clock shows. -/
theorem C120_main_same (ids : List VarId) (ic : SM (Mgr α) Unit) (step : α → α → SM (Mgr α) α) (dt : α) (n numSteps : Nat) (s : Timed α) (h0 : s.run.files = []) :
    Untimed id (Timed.main w clock ic canOpen ids step dt n numSteps s) = Run.main ic canOpen ids step dt n numSteps s.run :=
  (main_spec w clock canOpen ids ic step dt n numSteps s h0).1

/-- **C120** A run that ends normally has announced frame 0 and then each frame once, in order, has written a file for each, and ends with the average. -/
theorem C120_complete (ids : List VarId) (ic : SM (Mgr α) Unit) (step : α → α → SM (Mgr α) α) (dt : α) (n numSteps : Nat) (s s' : Timed α) (h0 : s.run.files = [])
    (h : Timed.main w clock ic canOpen ids step dt n numSteps s = .ok () s') : s'.out = s.out ++ consoleOf w clock s.reads n ∧ s'.run.files.map Prod.fst = List.range (n + 1) :=
  (main_spec w clock canOpen ids ic step dt n numSteps s h0).2.1 s' h

/-- **C120** A run that ends with an exception has announced the frames before it. -/
theorem C120_interrupted (ids : List VarId) (ic : SM (Mgr α) Unit) (step : α → α → SM (Mgr α) α) (dt : α) (n numSteps : Nat) (s s' : Timed α) (h0 : s.run.files = []) {m : String}
    (h : Timed.main w clock ic canOpen ids step dt n numSteps s = .throw m s') :
    ∃ o, s'.out = s.out ++ o ∧ Interrupted w clock canOpen s.reads n o (s'.run.files.map Prod.fst) :=
  (main_spec w clock canOpen ids ic step dt n numSteps s h0).2.2 m s' h

/-- A run that would end normally shows its progress, also if files cannot be created. -/
theorem shows_of_ok {id : VarId} {ids : List VarId} {ic : SM (Mgr α) Unit} {step : α → α → SM (Mgr α) α} {dt : α} {n numSteps : Nat} {s : Timed α} {o : List (Item α)} (ho : s.out = o) (h0 : s.run.files = []) (hr : s.reads = 0)
    (h : ∃ r', Run.main ic (fun _ => true) (id :: ids) step dt n numSteps s.run = .ok () r')
    (hc : (∀ j ≤ n, canOpen j = true) → ∃ r', Run.main ic canOpen (id :: ids) step dt n numSteps s.run = .ok () r') :
    Shows w clock canOpen n o (Timed.main w clock ic canOpen (id :: ids) step dt n numSteps s) := by
  subst ho
  constructor
  · intro ho
    obtain ⟨r', e⟩ := hc ho
    rw [← C120_main_same w clock canOpen (id :: ids) ic step dt n numSteps s h0] at e
    cases hm : Timed.main w clock ic canOpen (id :: ids) step dt n numSteps s with
    | ok u s' =>
      refine ⟨s', rfl, ?_⟩
      rw [← hr]
      exact (C120_complete w clock canOpen _ ic step dt n numSteps s s' h0 hm).1
    | throw => rw [hm] at e; simp [Untimed] at e
    | ub => rw [hm] at e; simp [Untimed] at e
    | diverge => rw [hm] at e; simp [Untimed] at e
  · intro k hk ho hf
    obtain ⟨m, s', h1, -, h3⟩ := main_unwritable w clock canOpen ic step dt n numSteps k s h0 hk ho hf h
    exact ⟨m, s', h1, by rw [h3, hr]⟩

/-! ## The programs -/

theorem dx_ok {range : Range} {s v : List α} {g : Rectilinear α} (h : Rectilinear.make range s v = .ok g) (h1 : 1 ≤ range.dims.length) : ∃ dx, g.dx 0 = .ok dx := by
  have := (Rectilinear.make_fields h).2.2.2.2.2.1
  unfold Rectilinear.dx vget
  rw [if_neg (by omega)]
  cases e : g.dxs with
  | nil => rw [e] at this; simp at this; omega
  | cons a l => exact ⟨a, by simp⟩

/-- The first part of the sheet programs. -/
theorem console_start {g : Rectilinear α} {dx : α} (hdx : g.dx 0 = .ok dx) (lines : α → List (Item α)) (K : GemConstants α) (rest : List α → SM (Timed α) Unit) {mults : List α}
    (hm : Source.currentSetup K.eps0 [-K.e, K.e] [K.me, K.mi] = .ok mults) :
    (do let dx ← lift (g.dx 0); say (lines dx); let mults ← lift (Source.currentSetup K.eps0 [-K.e, K.e] [K.me, K.mi]); rest mults : SM (Timed α) Unit) (Timed.start g) =
      rest mults ⟨⟨Mgr.make g, []⟩, lines dx, 0⟩ := by
  simp only [bind, SM.bind, lift, hdx, say, hm, Timed.start, List.nil_append]

/-- **C120** In every program: printing and time measurement do not change what is computed and written to files. -/
theorem C120_same (al : Bool) (nx ny nz : Int) (n numSteps : Nat) :
    Untimed id <$> GemChallenge.runTimed (α := α) clock al canOpen nx n numSteps = GemChallenge.run al canOpen nx n numSteps ∧
    Untimed id <$> HarrisCurrentSheet.runTimed (α := α) clock al canOpen nx n numSteps = HarrisCurrentSheet.run al canOpen nx n numSteps ∧
    Untimed id <$> TwoFluidBrioWu.runTimed (α := α) clock al canOpen nx n numSteps = TwoFluidBrioWu.run al canOpen nx n numSteps ∧
    Untimed id <$> SodShockTube.runTimed (α := α) clock al canOpen nx ny n numSteps = SodShockTube.run al canOpen nx ny n numSteps ∧
    Untimed id <$> Wave1D.runTimed (α := α) clock al canOpen nx ny nz n numSteps = Wave1D.run al canOpen nx ny nz n numSteps ∧
    Untimed id <$> GaussianPulse.runTimed (α := α) clock al canOpen nx n numSteps = GaussianPulse.run al canOpen nx n numSteps ∧
    Untimed id <$> AdvectGaussian.runTimed (α := α) clock canOpen nx ny n numSteps = AdvectGaussian.run canOpen nx ny n numSteps := by
  have solo : ∀ (G : Res (Rectilinear α)) (f : SM (Timed α) Unit) (f' : SM (Run α) Unit), (∀ s, s.run.files = [] → Untimed id (f s) = f' s.run) →
      Untimed id <$> (do let g ← G; return f (Timed.start g) : Res (SRes (Timed α) Unit)) = (do let g ← G; return f' ⟨Mgr.make g, []⟩) := by
    intro G f f' h
    cases G with
    | ok g => exact congrArg Res.ok (h _ rfl)
    | throw => rfl
    | ub => rfl
    | diverge => rfl
  refine ⟨?_, ?_, ?_, ?_, ?_, ?_, ?_⟩
  · unfold GemChallenge.runTimed GemChallenge.run
    simp only
    cases hg : GemChallenge.grid (GemConstants.make : GemConstants α) nx with
    | ok g =>
      obtain ⟨r, hr, hg'⟩ := Res.bind_eq_ok.1 hg
      have hr' : r = Range.setup [(0, nx), (0, 2 * nx)] := by
        have : Range.ofLengths 2 [nx, 2 * nx] = .ok (Range.setup [(0, nx), (0, 2 * nx)]) := rfl
        rw [this] at hr; exact (Res.ok.inj hr).symm
      obtain ⟨dx, hdx⟩ := dx_ok hg' (by rw [hr']; simp)
      obtain ⟨mults, hm⟩ : ∃ mults, Source.currentSetup (GemConstants.make : GemConstants α).eps0 [-(GemConstants.make : GemConstants α).e, (GemConstants.make : GemConstants α).e]
          [(GemConstants.make : GemConstants α).me, (GemConstants.make : GemConstants α).mi] = .ok mults := ⟨_, rfl⟩
      simp only [Res.ok_bind, Res.pure_eq, Res.map_ok]
      rw [console_start hdx (GemConstants.make.startLines (timeDt GemConstants.make n numSteps)) GemConstants.make _ hm, hm]
      exact congrArg Res.ok (C120_main_same _ _ _ _ _ _ _ _ _ _ rfl)
    | throw => rfl
    | ub => rfl
    | diverge => rfl
  · unfold HarrisCurrentSheet.runTimed HarrisCurrentSheet.run
    simp only
    cases hg : HarrisCurrentSheet.grid (HarrisCurrentSheet.constants : GemConstants α) nx with
    | ok g =>
      obtain ⟨r, hr, hg'⟩ := Res.bind_eq_ok.1 hg
      have hr' : r = Range.setup [(0, nx)] := by
        have : Range.ofLengths 1 [nx] = .ok (Range.setup [(0, nx)]) := rfl
        rw [this] at hr; exact (Res.ok.inj hr).symm
      obtain ⟨dx, hdx⟩ := dx_ok hg' (by rw [hr']; simp)
      obtain ⟨mults, hm⟩ : ∃ mults, Source.currentSetup (HarrisCurrentSheet.constants : GemConstants α).eps0 [-(HarrisCurrentSheet.constants : GemConstants α).e, (HarrisCurrentSheet.constants : GemConstants α).e]
          [(HarrisCurrentSheet.constants : GemConstants α).me, (HarrisCurrentSheet.constants : GemConstants α).mi] = .ok mults := ⟨_, rfl⟩
      simp only [Res.ok_bind, Res.pure_eq, Res.map_ok]
      rw [console_start hdx (HarrisCurrentSheet.constants.startLines (HarrisCurrentSheet.timeDt HarrisCurrentSheet.constants n numSteps)) HarrisCurrentSheet.constants _ hm, hm]
      exact congrArg Res.ok (C120_main_same _ _ _ _ _ _ _ _ _ _ rfl)
    | throw => rfl
    | ub => rfl
    | diverge => rfl
  · unfold TwoFluidBrioWu.runTimed TwoFluidBrioWu.run
    cases hg : TwoFluidBrioWu.grid (α := α) nx with
    | ok g => exact congrArg Res.ok (C120_main_same _ _ _ _ _ _ _ _ _ (Timed.start g) rfl)
    | throw => rfl
    | ub => rfl
    | diverge => rfl
  · exact solo _ _ _ fun s hs => C120_main_same _ _ _ _ _ _ _ _ _ s hs
  · exact solo _ _ _ fun s hs => C120_main_same _ _ _ _ _ _ _ _ _ s hs
  · exact solo _ _ _ fun s hs => C120_main_same _ _ _ _ _ _ _ _ _ s hs
  · exact solo _ _ _ fun s hs => C120_main_same _ _ _ _ _ _ _ _ _ s hs

/-- **C120** gem_challenge, with any numbers of cells (at least 2), frames and steps, any arithmetic and any clock: six lines at the beginning, then the progress of the run. -/
theorem C120_gem {nx : Int} (hnx : 2 ≤ nx) (n numSteps : Nat) : ∃ (g : Rectilinear α) (dx : α) (res : SRes (Timed α) Unit),
    GemChallenge.grid (GemConstants.make : GemConstants α) nx = .ok g ∧ g.dx 0 = .ok dx ∧ GemChallenge.runTimed clock true canOpen nx n numSteps = .ok res ∧
    Shows .aligned clock canOpen n (GemConstants.make.startLines (timeDt GemConstants.make n numSteps) dx) res := by
  obtain ⟨g, P, m0, -, hg, -, -, -, -, s, file, -, -, -, h1, -, -⟩ := C81_gem (α := α) hnx (fun _ => true) n numSteps
  obtain ⟨m1, h1⟩ := h1 fun _ _ => rfl
  obtain ⟨r, hr, hg'⟩ := Res.bind_eq_ok.1 hg
  have hr' : r = Range.setup [(0, nx), (0, 2 * nx)] := by
    have : Range.ofLengths 2 [nx, 2 * nx] = .ok (Range.setup [(0, nx), (0, 2 * nx)]) := rfl
    rw [this] at hr; exact (Res.ok.inj hr).symm
  obtain ⟨dx, hdx⟩ := dx_ok hg' (by rw [hr']; simp)
  obtain ⟨mults, hm⟩ : ∃ mults, Source.currentSetup (GemConstants.make : GemConstants α).eps0 [-(GemConstants.make : GemConstants α).e, (GemConstants.make : GemConstants α).e]
      [(GemConstants.make : GemConstants α).me, (GemConstants.make : GemConstants α).mi] = .ok mults := ⟨_, rfl⟩
  refine ⟨g, dx, Timed.main .aligned clock (gem (initial GemConstants.make) [electrons.q, ions.q, fields.q]) canOpen [electrons.q, ions.q, fields.q] ((solvers GemConstants.make mults).step true) (timeDt GemConstants.make n numSteps) n numSteps ⟨⟨Mgr.make g, []⟩, GemConstants.make.startLines (timeDt GemConstants.make n numSteps) dx, 0⟩, hg, hdx, ?_, shows_of_ok .aligned clock canOpen rfl rfl rfl ?_ ?_⟩
  · unfold GemChallenge.runTimed
    simp only [hg, Res.ok_bind, Res.pure_eq]
    rw [console_start hdx (GemConstants.make.startLines (timeDt GemConstants.make n numSteps)) GemConstants.make _ hm]
  · unfold GemChallenge.run at h1
    simp only [hg, hm, Res.ok_bind, Res.pure_eq, Res.ok.injEq] at h1
    exact ⟨_, h1⟩
  · intro ho
    obtain ⟨g', P', m0', -, hg2, -, -, -, -, s', file', -, -, -, h2, -, -⟩ := C81_gem (α := α) hnx canOpen n numSteps
    obtain ⟨m2, h2⟩ := h2 ho
    unfold GemChallenge.run at h2
    simp only [hg, hm, Res.ok_bind, Res.pure_eq, Res.ok.injEq] at h2
    exact ⟨_, h2⟩

/-- **C120** harris_current_sheet, likewise. -/
theorem C120_harris {nx : Int} (hnx : 2 ≤ nx) (n numSteps : Nat) : ∃ (g : Rectilinear α) (dx : α) (res : SRes (Timed α) Unit),
    HarrisCurrentSheet.grid (HarrisCurrentSheet.constants : GemConstants α) nx = .ok g ∧ g.dx 0 = .ok dx ∧ HarrisCurrentSheet.runTimed clock true canOpen nx n numSteps = .ok res ∧
    Shows .aligned clock canOpen n (HarrisCurrentSheet.constants.startLines (HarrisCurrentSheet.timeDt HarrisCurrentSheet.constants n numSteps) dx) res := by
  have ends : ∀ co : Nat → Bool, (∀ j ≤ n, co j = true) → ∃ r', HarrisCurrentSheet.run (α := α) true co nx n numSteps = .ok (.ok () r') := by
    intro co ho
    obtain ⟨g, P, m0, -, -, -, -, -, -, ⟨s, file, -, -, -, r, h1, h2⟩, -⟩ := C84_harris (α := α) hnx co n numSteps
    obtain ⟨m', h2⟩ := h2.1 ho
    exact ⟨_, by rw [h1, h2]⟩
  obtain ⟨g, P, m0, -, hg, -, -, -, -, -, -⟩ := C84_harris (α := α) hnx (fun _ => true) n numSteps
  obtain ⟨r, hr, hg'⟩ := Res.bind_eq_ok.1 hg
  have hr' : r = Range.setup [(0, nx)] := by
    have : Range.ofLengths 1 [nx] = .ok (Range.setup [(0, nx)]) := rfl
    rw [this] at hr; exact (Res.ok.inj hr).symm
  obtain ⟨dx, hdx⟩ := dx_ok hg' (by rw [hr']; simp)
  obtain ⟨mults, hm⟩ : ∃ mults, Source.currentSetup (HarrisCurrentSheet.constants : GemConstants α).eps0 [-(HarrisCurrentSheet.constants : GemConstants α).e, (HarrisCurrentSheet.constants : GemConstants α).e]
      [(HarrisCurrentSheet.constants : GemConstants α).me, (HarrisCurrentSheet.constants : GemConstants α).mi] = .ok mults := ⟨_, rfl⟩
  refine ⟨g, dx, Timed.main .aligned clock (gem (initial HarrisCurrentSheet.constants) [electrons.q, ions.q, fields.q]) canOpen [electrons.q, ions.q, fields.q] ((HarrisCurrentSheet.solvers HarrisCurrentSheet.constants mults).step true) (HarrisCurrentSheet.timeDt HarrisCurrentSheet.constants n numSteps) n numSteps ⟨⟨Mgr.make g, []⟩, HarrisCurrentSheet.constants.startLines (HarrisCurrentSheet.timeDt HarrisCurrentSheet.constants n numSteps) dx, 0⟩, hg, hdx, ?_, shows_of_ok .aligned clock canOpen rfl rfl rfl ?_ ?_⟩
  · unfold HarrisCurrentSheet.runTimed
    simp only [hg, Res.ok_bind, Res.pure_eq]
    rw [console_start hdx (HarrisCurrentSheet.constants.startLines (HarrisCurrentSheet.timeDt HarrisCurrentSheet.constants n numSteps)) HarrisCurrentSheet.constants _ hm]
  · obtain ⟨r', h1⟩ := ends (fun _ => true) fun _ _ => rfl
    unfold HarrisCurrentSheet.run at h1
    simp only [hg, hm, Res.ok_bind, Res.pure_eq, Res.ok.injEq] at h1
    exact ⟨_, h1⟩
  · intro ho
    obtain ⟨r', h1⟩ := ends canOpen ho
    unfold HarrisCurrentSheet.run at h1
    simp only [hg, hm, Res.ok_bind, Res.pure_eq, Res.ok.injEq] at h1
    exact ⟨_, h1⟩

/-- **C120** two_fluid_brio_wu shows the progress of its run. -/
theorem C120_brio {nx : Int} (hnx : 2 ≤ nx) (n numSteps : Nat) :
    ∃ res : SRes (Timed α) Unit, TwoFluidBrioWu.runTimed clock true canOpen nx n numSteps = .ok res ∧ Shows .printf clock canOpen n [] res := by
  have ends : ∀ co : Nat → Bool, (∀ j ≤ n, co j = true) → ∃ r', TwoFluidBrioWu.run (α := α) true co nx n numSteps = .ok (.ok () r') := by
    intro co ho
    obtain ⟨g, P, m0, -, -, -, -, -, -, ⟨s, file, -, -, -, r, h1, h2⟩, -⟩ := C84_brio (α := α) hnx co n numSteps
    obtain ⟨m', h2⟩ := h2.1 ho
    exact ⟨_, by rw [h1, h2]⟩
  obtain ⟨g, P, m0, -, hg, -, -, -, -, -, -⟩ := C84_brio (α := α) hnx (fun _ => true) n numSteps
  obtain ⟨mults, hm⟩ : ∃ mults, Source.currentSetup (TwoFluidBrioWu.eps0 : α) [TwoFluidBrioWu.qe, TwoFluidBrioWu.qi] [TwoFluidBrioWu.me, TwoFluidBrioWu.mi] = .ok mults := ⟨_, rfl⟩
  refine ⟨Timed.main .printf clock (brioWu TwoFluidBrioWu.initial [electrons.q, ions.q, fields.q]) canOpen [electrons.q, ions.q, fields.q] ((TwoFluidBrioWu.solvers mults).step true) (TwoFluidBrioWu.timeDt n numSteps) n numSteps (Timed.start g), ?_, shows_of_ok .printf clock canOpen rfl rfl rfl ?_ ?_⟩
  · unfold TwoFluidBrioWu.runTimed
    simp only [hg, Res.ok_bind, Res.pure_eq, bind, SM.bind, lift, hm, Res.bind]
  · obtain ⟨r', h1⟩ := ends (fun _ => true) fun _ _ => rfl
    unfold TwoFluidBrioWu.run at h1
    simp only [hg, hm, Res.ok_bind, Res.pure_eq, Res.ok.injEq] at h1
    exact ⟨_, h1⟩
  · intro ho
    obtain ⟨r', h1⟩ := ends canOpen ho
    unfold TwoFluidBrioWu.run at h1
    simp only [hg, hm, Res.ok_bind, Res.pure_eq, Res.ok.injEq] at h1
    exact ⟨_, h1⟩

/-- **C120** sod_shock_tube shows the progress of its run. -/
theorem C120_sod {nx ny : Int} (hnx : 2 ≤ nx) (hny : 2 ≤ ny) (n numSteps : Nat) :
    ∃ res : SRes (Timed α) Unit, SodShockTube.runTimed clock true canOpen nx ny n numSteps = .ok res ∧ Shows .printf clock canOpen n [] res := by
  have ends : ∀ co : Nat → Bool, (∀ j ≤ n, co j = true) → ∃ r', SodShockTube.run (α := α) true co nx ny n numSteps = .ok (.ok () r') := by
    intro co ho
    obtain ⟨g, -, -, ⟨s, file, -, -, -, r, h1, h2⟩, -⟩ := C85_sod (α := α) hnx hny co n numSteps
    obtain ⟨m', h2⟩ := h2.1 ho
    exact ⟨_, by rw [h1, h2]⟩
  obtain ⟨g, hg, -, -, -⟩ := C85_sod (α := α) hnx hny (fun _ => true) n numSteps
  refine ⟨Timed.main .printf clock (shockTube SodShockTube.initial [SodShockTube.fluid.q]) canOpen [SodShockTube.fluid.q] ((SodShockTube.solvers 2).step true) (SodShockTube.timeDt n numSteps) n numSteps (Timed.start g), ?_, shows_of_ok .printf clock canOpen rfl rfl rfl ?_ ?_⟩
  · unfold SodShockTube.runTimed
    simp only [hg, Res.ok_bind, Res.pure_eq]
  · obtain ⟨r', h1⟩ := ends (fun _ => true) fun _ _ => rfl
    unfold SodShockTube.run at h1
    simp only [hg, Res.ok_bind, Res.pure_eq, Res.ok.injEq] at h1
    exact ⟨_, h1⟩
  · intro ho
    obtain ⟨r', h1⟩ := ends canOpen ho
    unfold SodShockTube.run at h1
    simp only [hg, Res.ok_bind, Res.pure_eq, Res.ok.injEq] at h1
    exact ⟨_, h1⟩

/-- **C120** wave_1D shows the progress of its run. -/
theorem C120_wave {nx ny nz : Int} (hnx : 2 ≤ nx) (hny : 2 ≤ ny) (hnz : 2 ≤ nz) (n numSteps : Nat) :
    ∃ res : SRes (Timed α) Unit, Wave1D.runTimed clock true canOpen nx ny nz n numSteps = .ok res ∧ Shows .printf clock canOpen n [] res := by
  have ends : ∀ co : Nat → Bool, (∀ j ≤ n, co j = true) → ∃ r', Wave1D.run (α := α) true co nx ny nz n numSteps = .ok (.ok () r') := by
    intro co ho
    obtain ⟨g, -, -, ⟨s, file, -, -, -, r, h1, h2⟩, -⟩ := C86_wave (α := α) hnx hny hnz co n numSteps
    obtain ⟨m', h2⟩ := h2.1 ho
    exact ⟨_, by rw [h1, h2]⟩
  obtain ⟨g, hg, -, -, -⟩ := C86_wave (α := α) hnx hny hnz (fun _ => true) n numSteps
  refine ⟨Timed.main .printf clock (wave Wave1D.initial [Wave1D.field.q]) canOpen [Wave1D.field.q] (Wave1D.solvers.step true) (Wave1D.timeDt n numSteps) n numSteps (Timed.start g), ?_, shows_of_ok .printf clock canOpen rfl rfl rfl ?_ ?_⟩
  · unfold Wave1D.runTimed
    simp only [hg, Res.ok_bind, Res.pure_eq]
  · obtain ⟨r', h1⟩ := ends (fun _ => true) fun _ _ => rfl
    unfold Wave1D.run at h1
    simp only [hg, Res.ok_bind, Res.pure_eq, Res.ok.injEq] at h1
    exact ⟨_, h1⟩
  · intro ho
    obtain ⟨r', h1⟩ := ends canOpen ho
    unfold Wave1D.run at h1
    simp only [hg, Res.ok_bind, Res.pure_eq, Res.ok.injEq] at h1
    exact ⟨_, h1⟩

/-- **C120** gaussian_pulse and advect_gaussian are undefined (C87), whatever the clock. -/
theorem C120_undefined {nx ny : Int} (hnx : 1 ≤ nx) (hny : 1 ≤ ny) (al : Bool) (n numSteps : Nat) :
    (∃ u, GaussianPulse.runTimed (α := α) clock al canOpen nx n numSteps = .ok (.ub u)) ∧ ∃ u, AdvectGaussian.runTimed (α := α) clock canOpen nx ny n numSteps = .ok (.ub u) := by
  have k : ∀ {r : Res (SRes (Timed α) Unit)} {u : String}, Untimed id <$> r = .ok (.ub u) → r = .ok (.ub u) := by
    intro r u h
    cases r with
    | ok x =>
      rw [Res.map_ok, Res.ok.injEq] at h
      cases x with
      | ub v => rw [Untimed, SRes.ub.injEq] at h; rw [h]
      | ok => rw [Untimed] at h; cases h
      | throw => rw [Untimed] at h; cases h
      | diverge => rw [Untimed] at h; cases h
    | throw => cases h
    | ub => cases h
    | diverge => cases h
  obtain ⟨-, -, -, -, -, s1, s2⟩ := C120_same (α := α) clock canOpen al nx ny 1 n numSteps
  obtain ⟨⟨u, h1⟩, ⟨v, h2⟩⟩ := C87_false (α := α) hnx hny al canOpen n numSteps
  exact ⟨⟨u, k (s1.trans h1)⟩, ⟨v, k (s2.trans h2)⟩⟩

end

/-! ## Times, in exact arithmetic -/

section
variable (clock : Nat → Int)

/-- **C120** A clock that does not go back: the times shown are not negative, at most the time that passed, and less than a microsecond below it. -/
theorem C120_elapsed {a b : Nat} (h : clock a ≤ clock b) : 0 ≤ (elapsed clock a b : ℝ) ∧ (elapsed clock a b : ℝ) ≤ (clock b - clock a : Int) / 10 ^ 9 ∧
    ((clock b - clock a : Int) : ℝ) / 10 ^ 9 - 1 / 10 ^ 6 < elapsed clock a b := by
  have e : (elapsed clock a b : ℝ) = 1 / 10 ^ 6 * (((clock b - clock a).tdiv 1000 : Int) : ℝ) := by
    unfold elapsed
    simp only [real_lit, real_ofInt]
    push_cast
    rfl
  have h0 : 0 ≤ clock b - clock a := by omega
  rw [e]
  generalize clock b - clock a = d at *
  rw [Int.tdiv_eq_ediv_of_nonneg h0]
  have h1 : 0 ≤ d / 1000 := by omega
  have h2 : 1000 * (d / 1000) ≤ d := by omega
  have h3 : d < 1000 * (d / 1000) + 1000 := by omega
  generalize d / 1000 = q at *
  have h1' : (0 : ℝ) ≤ q := by exact_mod_cast h1
  have h2' : (1000 : ℝ) * q ≤ d := by exact_mod_cast h2
  have h3' : (d : ℝ) < 1000 * q + 1000 := by exact_mod_cast h3
  refine ⟨by positivity, by linarith, by linarith⟩

/-- **C120** The average is the sum of the times of the frames divided by their number; 0 if there are no frames. -/
theorem C120_average (r n : Nat) : (averageOf clock r n : ℝ) = ((List.range n).map fun i => (elapsed clock (r + 3 * i) (r + 3 * i + 1) : ℝ)).sum / n := by
  unfold averageOf
  have : ∀ (l : List Nat) (a : ℝ), l.foldl (fun a i => a + elapsed clock (r + 3 * i) (r + 3 * i + 1) / Arith.ofInt (n : Int)) a =
      a + (l.map fun i => (elapsed clock (r + 3 * i) (r + 3 * i + 1) : ℝ)).sum / n := by
    intro l
    induction l with
    | nil => intro a; simp
    | cons x l ih =>
      intro a
      rw [List.foldl_cons, ih, List.map_cons, List.sum_cons]
      simp only [real_ofInt, Int.cast_natCast]
      ring
  rw [this]
  simp [real_ofInt]

/-- **C120** It lies between the shortest and the longest. -/
theorem C120_average_between (r : Nat) {n : Nat} (hn : 0 < n) {lo hi : ℝ} (h : ∀ i < n, lo ≤ (elapsed clock (r + 3 * i) (r + 3 * i + 1) : ℝ) ∧ (elapsed clock (r + 3 * i) (r + 3 * i + 1) : ℝ) ≤ hi) :
    lo ≤ (averageOf clock r n : ℝ) ∧ (averageOf clock r n : ℝ) ≤ hi := by
  have hn' : (0 : ℝ) < n := by exact_mod_cast hn
  rw [C120_average, le_div_iff₀ hn', div_le_iff₀ hn']
  have : ∀ m ≤ n, lo * m ≤ ((List.range m).map fun i => (elapsed clock (r + 3 * i) (r + 3 * i + 1) : ℝ)).sum ∧
      ((List.range m).map fun i => (elapsed clock (r + 3 * i) (r + 3 * i + 1) : ℝ)).sum ≤ hi * m := by
    intro m
    induction m with
    | zero => intro _; simp
    | succ m ih =>
      intro hm
      obtain ⟨h1, h2⟩ := ih (by omega)
      obtain ⟨h3, h4⟩ := h m (by omega)
      rw [List.range_succ, List.map_append, List.sum_append]
      simp only [List.map_cons, List.map_nil, List.sum_cons, List.sum_nil, add_zero]
      push_cast
      constructor <;> linarith
  exact this n le_rfl

/-- **C120** With a clock that does not go back, the times of all frames and files together are at most the time from the first reading to the last. -/
theorem C120_total (hc : Monotone clock) (r n : Nat) :
    ((List.range n).map fun i => (elapsed clock (r + 3 * i) (r + 3 * i + 1) : ℝ) + elapsed clock (r + 3 * i + 1) (r + 3 * i + 2)).sum ≤ ((clock (r + 3 * n) - clock r : Int) : ℝ) / 10 ^ 9 := by
  induction n with
  | zero => simp
  | succ n ih =>
    rw [List.range_succ, List.map_append, List.sum_append]
    simp only [List.map_cons, List.map_nil, List.sum_cons, List.sum_nil, add_zero]
    have h1 := (C120_elapsed clock (hc (show r + 3 * n ≤ r + 3 * n + 1 by omega))).2.1
    have h2 := (C120_elapsed clock (hc (show r + 3 * n + 1 ≤ r + 3 * n + 2 by omega))).2.1
    have h3 : (clock (r + 3 * n + 2) : ℝ) ≤ clock (r + 3 * (n + 1)) := by exact_mod_cast hc (show r + 3 * n + 2 ≤ r + 3 * (n + 1) by omega)
    push_cast at *
    linarith

end

-- main.cpp's program as configured, with files that can be created: what it prints
example (clock : Nat → Int) : ∃ (dx : ℝ) (s : Timed ℝ), GemChallenge.runTimed clock true (fun _ => true) 256 1000 125 = .ok (.ok () s) ∧
    s.out = GemConstants.make.startLines (timeDt GemConstants.make 1000 125) dx ++ consoleOf .aligned clock 0 1000 := by
  obtain ⟨g, dx, res, -, -, e, h⟩ := C120_gem (α := ℝ) clock (fun _ => true) (nx := 256) (by decide) 1000 125
  obtain ⟨s, rfl, hs⟩ := h.complete fun _ _ => rfl
  exact ⟨dx, s, e, hs⟩
-- … and if the third file cannot: two complete lines after that of frame 0, and the beginning of a third
example (clock : Nat → Int) : ∃ (dx : ℝ) (m : String) (s : Timed ℝ), GemChallenge.runTimed clock true (fun j => j ≠ 3) 256 1000 125 = .ok (.throw m s) ∧
    s.out = GemConstants.make.startLines (timeDt GemConstants.make 1000 125) dx ++ (headOf .aligned ++ headDone .aligned ++ linesOf .aligned clock 0 2 ++ beginOf .aligned 3 (elapsed clock 6 7)) := by
  obtain ⟨g, dx, res, -, -, e, h⟩ := C120_gem (α := ℝ) clock (fun j => j ≠ 3) (nx := 256) (by decide) 1000 125
  obtain ⟨m, s, rfl, hs⟩ := h.stopped 3 (by decide) (by decide) (by decide)
  exact ⟨dx, m, s, e, hs⟩
-- a clock that gains 2.5 microseconds between readings: every time shown is 2 microseconds
example : (elapsed (fun k => 2500 * k) 6 7 : ℝ) = 2 / 10 ^ 6 ∧ (averageOf (fun k => 2500 * (k : Int)) 0 100 : ℝ) = 2 / 10 ^ 6 := by
  have e : ∀ a : Nat, (elapsed (fun k => 2500 * (k : Int)) a (a + 1) : ℝ) = 2 / 10 ^ 6 := by
    intro a
    unfold elapsed
    have : (2500 * ((a + 1 : Nat) : Int) - 2500 * (a : Int)).tdiv 1000 = 2 := by rw [show 2500 * ((a + 1 : Nat) : Int) - 2500 * (a : Int) = 2500 by push_cast; ring]; rfl
    rw [this]
    simp only [real_lit, real_ofInt]
    norm_num
  refine ⟨e 6, ?_⟩
  obtain ⟨h1, h2⟩ := C120_average_between (fun k => 2500 * (k : Int)) 0 (n := 100) (by norm_num) (lo := 2 / 10 ^ 6) (hi := 2 / 10 ^ 6) (fun i _ => ⟨(e _).ge, (e _).le⟩)
  exact le_antisymm h2 h1
end QK.Props
