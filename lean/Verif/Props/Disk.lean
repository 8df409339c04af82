import Verif.Proofs.Disk
import Verif.Props.Format
/-
Properties of output files on a medium (C133, C134).
-/
namespace QK.Props
open QK Spec Format

section
variable {α : Type} [Arith α] {num : α → List Char}

theorem onMedium_files (room : Nat → Nat) (files : List (Nat × List (Tok α))) :
    onMedium room (files.flatMap (Logged.fileLog num)) = ⟨files.map fun f => (f.1, (fileText num f.2).take (room f.1)), none⟩ := by
  have := Medium.act_files (num := num) (room := room) files []
  rwa [List.nil_append] at this

/-! ## C133 -/

/-- **C133**, exactly: the outcome of a program does not depend on the room on the medium. If it ends normally, every file has as many of its characters as there was room for … -/
theorem C133_exactly (num : α → List Char) (ic : SM (Mgr α) Unit) (canOpen : Nat → Bool) (ids : List VarId) (step : α → α → SM (Mgr α) α) (dt : α) (F S : Nat) {m : Mgr α} {r : Run α}
    (h : Run.main ic canOpen ids step dt F S ⟨m, []⟩ = .ok () r) :
    ∃ l, Logged.main num ic canOpen ids step dt F S ⟨⟨m, []⟩, []⟩ = .ok () ⟨r, l⟩ ∧
      ∀ room, onMedium room l = ⟨r.files.map fun f => (f.1, (fileText num f.2).take (room f.1)), none⟩ :=
  ⟨_, (Logged.main_dress (num := num) ic canOpen ids step dt F S ⟨m, []⟩).trans (by rw [h]; rfl), fun room => onMedium_files room _⟩

/-- … and likewise if it ends with an exception. -/
theorem C133_exception (num : α → List Char) (ic : SM (Mgr α) Unit) (canOpen : Nat → Bool) (ids : List VarId) (step : α → α → SM (Mgr α) α) (dt : α) (F S : Nat) {m : Mgr α} {r : Run α} {msg : String}
    (h : Run.main ic canOpen ids step dt F S ⟨m, []⟩ = .throw msg r) :
    ∃ l, Logged.main num ic canOpen ids step dt F S ⟨⟨m, []⟩, []⟩ = .throw msg ⟨r, l⟩ ∧
      ∀ room, onMedium room l = ⟨r.files.map fun f => (f.1, (fileText num f.2).take (room f.1)), none⟩ :=
  ⟨_, (Logged.main_dress (num := num) ic canOpen ids step dt F S ⟨m, []⟩).trans (by rw [h]; rfl), fun room => onMedium_files room _⟩

theorem gem_logged (num : α → List Char) {al : Bool} {canOpen : Nat → Bool} {nx : Int} {F S : Nat} {r : Run α} (h : GemChallenge.run al canOpen nx F S = .ok (.ok () r)) :
    GemChallenge.runLogged num al canOpen nx F S = .ok (.ok () ⟨r, r.files.flatMap (Logged.fileLog num)⟩) := by
  unfold GemChallenge.run at h
  unfold GemChallenge.runLogged
  simp only [] at h ⊢
  generalize GemChallenge.grid (GemConstants.make : GemConstants α) nx = g at h ⊢
  cases g with
  | ok g =>
    simp only [Res.ok_bind] at h ⊢
    generalize Source.currentSetup (α := α) _ _ _ = ms at h ⊢
    cases ms with
    | ok ms =>
      simp only [Res.ok_bind] at h ⊢
      exact congrArg Res.ok ((Logged.main_dress (num := num) _ canOpen _ _ _ F S ⟨_, []⟩).trans (by rw [Res.ok.inj h]; rfl))
    | throw => cases h
    | ub => cases h
    | diverge => cases h
  | throw => cases h
  | ub => cases h
  | diverge => cases h

/-- **C133**, what holds: a run that ends normally, on a medium with enough room, has left every file complete.
Missing: that lack of room is reported. -/
theorem C133_partial (num : α → List Char) (ic : SM (Mgr α) Unit) (canOpen : Nat → Bool) (ids : List VarId) (step : α → α → SM (Mgr α) α) (dt : α) (F S : Nat) {m : Mgr α} {r : Run α}
    (h : Run.main ic canOpen ids step dt F S ⟨m, []⟩ = .ok () r) :
    ∃ l, Logged.main num ic canOpen ids step dt F S ⟨⟨m, []⟩, []⟩ = .ok () ⟨r, l⟩ ∧
      ∀ room, (∀ f ∈ r.files, (fileText num f.2).length ≤ room f.1) → onMedium room l = ⟨complete num r.files, none⟩ := by
  obtain ⟨l, h1, h2⟩ := C133_exactly num ic canOpen ids step dt F S h
  refine ⟨l, h1, fun room hr => ?_⟩
  rw [h2, complete]
  congr 1
  exact List.map_congr_left fun f hf => by rw [List.take_of_length_le (hr f hf)]

theorem vtk_text_ne (num : α → List Char) (n : Int × Int × Int) (o s : α × α × α) (N : Int) (bs : List (List (Tok α))) : fileText num (vtkFile n o s N bs) ≠ [] := by
  intro h
  have : fileText num (vtkFile n o s N bs) = "# vtk DataFile Version 2.0\n".toList ++ fileText num (vtkFile n o s N bs).tail := by
    simp [fileText, vtkFile, tokText]
  rw [h] at this
  exact absurd (congrArg List.length this) (by simp)

/-- **C133**, the negation: the program of main.cpp, as configured, on a full medium where files can be created but nothing can be written, ends normally after the whole computation
and has left 1001 empty files, although none of the files it writes is empty. -/
theorem C133_false (num : α → List Char) : ∃ (r : Run α) (l : List Action), GemChallenge.runLogged num true (fun _ => true) 256 1000 125 = .ok (.ok () ⟨r, l⟩) ∧
    (onMedium (fun _ => 0) l).done = (List.range 1001).map (fun k => (k, [])) ∧ (onMedium (fun _ => 0) l).cur = none ∧
    r.files.map Prod.fst = List.range 1001 ∧ ∀ f ∈ complete num r.files, f.2 ≠ [] := by
  obtain ⟨g, P, m0, -, -, -, -, -, -, s, file, -, -, hshow, he, -⟩ := C81_gem (α := α) (nx := 256) (by decide) (fun _ => true) 1000 125
  obtain ⟨m', he⟩ := he (fun _ _ => rfl)
  refine ⟨_, _, gem_logged num he, ?_, ?_, ?_, ?_⟩
  · rw [onMedium_files]
    simp [List.map_map, Function.comp_def]
  · rw [onMedium_files]
  · simp [List.map_map, Function.comp_def]
  · intro f hf
    simp only [complete, List.map_map, List.mem_map, List.mem_range, Function.comp_def] at hf
    obtain ⟨j, hj, rfl⟩ := hf
    obtain ⟨o, sp, e⟩ := hshow j (by omega)
    simp only [e]
    exact vtk_text_ne _ _ _ _ _ _

/-! ## C134 -/

theorem onMedium_append (room : Nat → Nat) (l l' : List Action) : onMedium room (l ++ l') = l'.foldl (Medium.act room) (onMedium room l) := List.foldl_append

theorem take_prefix_text (num : α → List Char) (toks : List (Tok α)) (j : Nat) : fileText num (toks.take j) <+: fileText num toks := by
  refine ⟨fileText num (toks.drop j), ?_⟩
  unfold fileText
  rw [← List.flatMap_append, List.take_append_drop]

/-- What is left of the files of `r` after some of the requests. -/
theorem killed_cases {room : Nat → Nat} {files : List (Nat × List (Tok α))} {l' : List Action} (h : l' <+: files.flatMap (Logged.fileLog num)) (cut : Nat) :
    ∃ n, (onMedium room l').killed cut = ((files.take n).map fun f => (f.1, (fileText num f.2).take (room f.1))) ∨
      ∃ f cs, files[n]? = some f ∧ cs <+: fileText num f.2 ∧ (onMedium room l').killed cut = ((files.take n).map fun f => (f.1, (fileText num f.2).take (room f.1))) ++ [(f.1, cs)] := by
  obtain ⟨n, rfl | ⟨f, j, h1, rfl⟩⟩ := Medium.prefix_cases h
  · exact ⟨n, .inl (by rw [onMedium_files]; simp [Medium.killed])⟩
  · refine ⟨n, .inr ⟨f, ((fileText num (f.2.take j)).take (room f.1)).take cut, h1, ?_, ?_⟩⟩
    · exact (List.take_prefix _ _).trans ((List.take_prefix _ _).trans (take_prefix_text num _ _))
    · rw [onMedium_append, onMedium_files, Medium.act_opened]
      simp [Medium.killed]

/-- **C134** A program that would end normally and is killed at any moment, with enough room: it leaves the first files, complete, and possibly the beginning of the next. -/
theorem C134_killed (num : α → List Char) (ic : SM (Mgr α) Unit) (canOpen : Nat → Bool) (ids : List VarId) (step : α → α → SM (Mgr α) α) (dt : α) (F S : Nat) {m : Mgr α} {r : Run α}
    (h : Run.main ic canOpen ids step dt F S ⟨m, []⟩ = .ok () r) :
    ∃ l, Logged.main num ic canOpen ids step dt F S ⟨⟨m, []⟩, []⟩ = .ok () ⟨r, l⟩ ∧
      ∀ room, (∀ f ∈ r.files, (fileText num f.2).length ≤ room f.1) → ∀ l', l' <+: l → ∀ cut, LeftOf (complete num r.files) ((onMedium room l').killed cut) := by
  refine ⟨_, (Logged.main_dress (num := num) ic canOpen ids step dt F S ⟨m, []⟩).trans (by rw [h]; rfl), fun room hr l' hl cut => ?_⟩
  have e : ∀ n, ((r.files.take n).map fun f => (f.1, (fileText num f.2).take (room f.1))) = (complete num r.files).take n := by
    intro n
    rw [complete, ← List.map_take]
    exact List.map_congr_left fun f hf => by rw [List.take_of_length_le (hr f (List.mem_of_mem_take hf))]
  obtain ⟨n, h1 | ⟨f, cs, h1, h2, h3⟩⟩ := killed_cases (room := room) hl cut
  · exact ⟨n, .inl (by rw [h1, e])⟩
  · refine ⟨n, .inr ⟨f.1, fileText num f.2, cs.length, by simp [complete, h1], ?_⟩⟩
    rw [h3, e, ← List.prefix_iff_eq_take.1 h2]

theorem full_of_count {c : Char} {T cs : List Char} (hT : T.getLast? = some c) (h : cs <+: T) : cs.count c = T.count c ↔ cs = T := by
  constructor
  · intro e
    obtain ⟨t, rfl⟩ := h
    rw [List.count_append] at e
    have e0 : t.count c = 0 := by omega
    cases ht : t.getLast? with
    | none => rw [List.getLast?_eq_none_iff.1 ht, List.append_nil]
    | some d =>
      rw [List.getLast?_append, ht, Option.some_or, Option.some.injEq] at hT
      subst hT
      exact absurd (List.mem_of_getLast? ht) (List.count_eq_zero.1 e0)
  · rintro rfl; rfl

theorem count_unlines {c : Char} : ∀ {ls : List (List Char)}, (∀ l ∈ ls, c ∉ l) → (unlines c ls).count c = ls.length
  | [], _ => rfl
  | l :: ls, h => by
    have e : unlines c (l :: ls) = l ++ c :: unlines c ls := by simp [unlines]
    rw [e, List.count_append, List.count_cons_self, count_unlines (fun l hl => h l (by simp [hl])), List.count_eq_zero.2 (h l (by simp))]
    simp

theorem getLast_unlines {c : Char} {ls : List (List Char)} (h : ls ≠ []) : (unlines c ls).getLast? = some c := by
  have e := List.dropLast_append_getLast h
  rw [← e]
  simp [unlines]

/-- **C134** Of a file with `n` blocks whose names and numbers contain no line ends, a beginning is the whole file exactly if it has `8 + 3·n` line ends. -/
theorem C134_lines (hn : ∀ a, '\n' ∉ num a) (n : Int × Int × Int) (o s : α × α × α) (N : Int) {bs : List (String × String × List α)} (hl : ∀ b ∈ bs, '\n' ∉ b.1.toList ∧ '\n' ∉ b.2.1.toList)
    {cs : List Char} (h : cs <+: fileText num (vtkFile n o s N (bs.map fun b => scalarBlock b.1 b.2.1 b.2.2))) :
    lineEnds cs = 8 + 3 * bs.length ↔ cs = fileText num (vtkFile n o s N (bs.map fun b => scalarBlock b.1 b.2.1 b.2.2)) := by
  rw [file_text] at h ⊢
  have hi : ∀ i, '\n' ∉ intText i := fun i h => (intText_plain i _ h).2.1 rfl
  rw [← full_of_count (getLast_unlines (by simp [headLines])) h, count_unlines]
  · have e : (bs.flatMap (blockLines num)).length = 3 * bs.length := by
      rw [List.length_flatMap]
      simp [blockLines, Nat.mul_comm]
    rw [List.length_append, e]
    rfl
  · intro l hl'
    rcases List.mem_append.1 hl' with h1 | h1
    · simp only [headLines, List.mem_cons, List.not_mem_nil, or_false] at h1
      rcases h1 with rfl | rfl | rfl | rfl | rfl | rfl | rfl | rfl
      all_goals first
        | decide
        | simp [hn, hi]
    · obtain ⟨b, hb, h1⟩ := List.mem_flatMap.1 h1
      simp only [blockLines, List.mem_cons, List.not_mem_nil, or_false] at h1
      rcases h1 with rfl | rfl | rfl
      · simp [announce, hl b hb]
      · decide
      · intro hc
        simp only [unlines, List.mem_flatMap, List.mem_map, List.mem_append, List.mem_singleton] at hc
        obtain ⟨_, ⟨v, -, rfl⟩, hc | hc⟩ := hc
        · exact hn v hc
        · exact absurd hc (by decide)

/-- **C134** The program of main.cpp, on any medium and killed at any moment: a file it left is the complete file that shows the state after so many steps as belong to its number,
exactly if it has 56 line ends. -/
theorem C134_gem (hn : ∀ a, '\n' ∉ num a) {nx : Int} (hnx : 2 ≤ nx) (F S : Nat) :
    ∃ (g : Rectilinear α) (P : Plasma α) (m0 : Mgr α) (s : Nat → State α) (file : Nat → List (Tok α)) (m' : Mgr α) (l : List Action), GemPlasma P ∧ P.Holds m0 0 (s 0) ∧
      (∀ j < F * S, PlasmaStep P g 1 [0] [1] (GemChallenge.timeDt GemConstants.make F S) (s j) (s (j + 1))) ∧
      (∀ j ≤ F, FileShows g.rng.dims P (s (j * S)) (file j)) ∧
      GemChallenge.runLogged num true (fun _ => true) nx F S = .ok (.ok () ⟨⟨m', (List.range (F + 1)).map fun j => (j, file j)⟩, l⟩) ∧
      ∀ room l', l' <+: l → ∀ cut, ∀ f ∈ (onMedium room l').killed cut,
        f.1 ≤ F ∧ f.2 <+: fileText num (file f.1) ∧ (lineEnds f.2 = 56 ↔ f.2 = fileText num (file f.1)) := by
  obtain ⟨g, P, m0, hP, -, -, -, -, -, s, file, hs0, hstep, hshow, he, -⟩ := C81_gem (α := α) hnx (fun _ => true) F S
  obtain ⟨m', he⟩ := he (fun _ _ => rfl)
  refine ⟨g, P, m0, s, file, m', _, hP, hs0, hstep, hshow, gem_logged num he, fun room l' hl cut f hf => ?_⟩
  have key : f.1 ≤ F ∧ f.2 <+: fileText num (file f.1) := by
    obtain ⟨n, h1 | ⟨q, cs, h1, h2, h3⟩⟩ := killed_cases (room := room) hl cut
    · rw [h1] at hf
      obtain ⟨q, hq, rfl⟩ := List.mem_map.1 hf
      obtain ⟨j, hj, rfl⟩ := List.mem_map.1 (List.mem_of_mem_take hq)
      exact ⟨by simpa [Nat.lt_succ_iff] using hj, List.take_prefix _ _⟩
    · rw [h3] at hf
      rcases List.mem_append.1 hf with hf | hf
      · obtain ⟨q, hq, rfl⟩ := List.mem_map.1 hf
        obtain ⟨j, hj, rfl⟩ := List.mem_map.1 (List.mem_of_mem_take hq)
        exact ⟨by simpa [Nat.lt_succ_iff] using hj, List.take_prefix _ _⟩
      · obtain ⟨j, hj, rfl⟩ := List.mem_map.1 (List.mem_of_getElem? h1)
        rw [List.mem_singleton.1 hf]
        exact ⟨by simpa [Nat.lt_succ_iff] using hj, h2⟩
  refine ⟨key.1, key.2, ?_⟩
  obtain ⟨o, sp, e⟩ := hshow f.1 key.1
  have e' : fieldBlocks g.rng.dims P.e.q (s (f.1 * S)).e ++ fieldBlocks g.rng.dims P.i.q (s (f.1 * S)).i ++ fieldBlocks g.rng.dims P.f.q (s (f.1 * S)).f =
      (tagged g.rng.dims [(P.e.q, (s (f.1 * S)).e), (P.i.q, (s (f.1 * S)).i), (P.f.q, (s (f.1 * S)).f)]).map fun b => scalarBlock b.1 b.2.1 b.2.2 := by
    rw [tagged_blocks]; simp
  have hf2 := key.2
  rw [e, e'] at hf2 ⊢
  have hlab := tagged_labels g.rng.dims [(P.e.q, (s (f.1 * S)).e), (P.i.q, (s (f.1 * S)).i), (P.f.q, (s (f.1 * S)).f)]
  simp only [List.map_cons, List.map_nil, hP.electrons, hP.ions, hP.field] at hlab
  rw [← C134_lines hn _ _ _ _ ?_ hf2]
  · have := congrArg List.length hlab
    rw [List.length_map] at this
    rw [hP.electrons, hP.ions, hP.field, this]
    rfl
  · intro b hb
    rw [hP.electrons, hP.ions, hP.field] at hb
    have := List.mem_map_of_mem (f := fun b : String × String × List α => (b.1, b.2.1)) hb
    rw [hlab] at this
    have dec : ∀ x ∈ labels [⟨"electrons", ["rho", "px", "py", "pz", "e"], Basis.volumeAverage⟩, ⟨"ions", ["rho", "px", "py", "pz", "e"], Basis.volumeAverage⟩,
      ⟨"field", ["Ex", "Ey", "Ez", "Bx", "By", "Bz"], Basis.volumeAverage⟩], '\n' ∉ x.1.toList ∧ '\n' ∉ x.2.toList := by decide
    exact dec _ this

-- a log of two files, the second cut: what is left, and that it is recognised
example : (onMedium (fun k => if k = 1 then 3 else 9) [.opened 0, .wrote ['a', '\n'], .wrote ['b', '\n'], .closed, .opened 1, .wrote ['a', '\n'], .wrote ['b', '\n'], .closed]).done =
    [(0, ['a', '\n', 'b', '\n']), (1, ['a', '\n', 'b'])] := by decide
example : (onMedium (fun _ => 9) [.opened 0, .wrote ['a', '\n'], .closed, .opened 1, .wrote ['a', '\n']]).killed 1 = [(0, ['a', '\n']), (1, ['a'])] := by decide
-- numbers printed as in the files have no line ends
example (k : Nat) : '\n' ∉ intText (k : Int) := fun h => (intText_plain k _ h).2.1 rfl
-- the program as configured, killed while it writes: a file with 56 line ends is complete
example (num : ℝ → List Char) (hn : ∀ a, '\n' ∉ num a) : ∃ (file : Nat → List (Tok ℝ)) (r : Run ℝ) (l : List Action), GemChallenge.runLogged num true (fun _ => true) 256 1000 125 = .ok (.ok () ⟨r, l⟩) ∧
    ∀ f ∈ (onMedium (fun _ => 10 ^ 9) (l.take 5000)).killed 4096, lineEnds f.2 = 56 → f.2 = fileText num (file f.1) := by
  obtain ⟨-, -, -, -, file, m', l, -, -, -, -, h1, h2⟩ := C134_gem (α := ℝ) hn (nx := 256) (by decide) 1000 125
  exact ⟨file, _, l, h1, fun f hf => (h2 _ _ (List.take_prefix _ _) _ f hf).2.2.1⟩

end
end QK.Props
