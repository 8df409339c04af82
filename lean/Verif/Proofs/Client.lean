import Verif.Spec.Client
import Verif.Proofs.ProgramStage
import Verif.Props.Boundary
/- Helper lemmas: programs made of calls of the solvers. -/
namespace QK
open Spec Solve Props

section
variable {α : Type} [Arith α] {S : VarId → Prop} {m m' m'' : Mgr α} {ws ws' : List VarId}

omit [Arith α] in
theorem Only.still (h : Only S ws m m') {id : VarId} (hid : m.contents id ≠ none) : m'.contents id ≠ none := by
  by_cases e : id ∈ ws
  · exact h.exist id e
  · rw [h.kept id e]; exact hid

omit [Arith α] in
theorem Only.trans (h : Only S ws m m') (h' : Only S ws' m' m'') : Only S (ws ++ ws') m m'' := by
  refine ⟨h'.good, h'.laid, h'.grid.trans h.grid, fun d => h'.dt (h.dt d), ?_, ?_⟩
  · intro id hid
    rw [List.mem_append, not_or] at hid
    rw [h'.kept id hid.2, h.kept id hid.1]
  · intro id hid
    rcases List.mem_append.1 hid with e | e
    · exact h'.still (h.exist id e)
    · exact h'.exist id e

omit [Arith α] in
theorem Only.of (g : m'.Good S) (l : m'.Laid) (x : m.Extends m') (k : ∀ id, id ∉ ws → m'.contents id = m.contents id)
    (e : ∀ id ∈ ws, m'.contents id ≠ none) : Only S ws m m' := ⟨g, l, x.grid, fun d => by rw [x.dt]; exact d, k, e⟩

omit [Arith α] in
theorem Only.self (g : m.Good S) (l : m.Laid) : Only S [] m m := ⟨g, l, rfl, fun d => d, fun _ _ => rfl, by simp⟩

/-- Requesting an output. -/
theorem output_only (h : m.Good S) (hL : m.Laid) {id : VarId} (hid : S id) :
    ∃ a m', outputVar id m = .ok a m' ∧ Only S [id] m m' ∧ m.Extends m' ∧ m'.addr id = some a := by
  obtain ⟨a, m', k1, k2, k3, k4, k5, k6⟩ := outputVar_requested h hL hid
  refine ⟨a, m', k1, .of k2 k3 k4 ?_ ?_, k4, k5⟩
  · intro x hx
    rw [k6]
    unfold Mgr.requested
    cases e : m.contents x with
    | some c => rfl
    | none => simp only; rw [if_neg hx]
  · intro x hx
    obtain ⟨c, hc⟩ := Mgr.requested_mem (m := m) (Arith.lit 0 : α) hx
    rw [k6, hc]; simp

/-- A loop over outputs each of which is treated without error. -/
theorem each_only {f : Chunk α → Res (Chunk α)} {M : Box}
    (one : ∀ {m : Mgr α} {s : VarId} {u : Cell → α} (ids : List VarId), m.Good S → m.Laid → m.grid.rng.dims = M → S s → m.Stores s u → 1 ≤ s.basis.points → 1 ≤ s.comps.length →
      ∃ m' u', eachOutput f (s :: ids) m = eachOutput f ids m' ∧ m'.Good S ∧ m'.Laid ∧ m.Extends m' ∧ (∀ id, id ≠ s → m'.contents id = m.contents id) ∧ m'.Stores s u') :
    ∀ (outs : List VarId) {m : Mgr α}, m.Good S → m.Laid → m.grid.rng.dims = M → (∀ id ∈ outs, S id ∧ 1 ≤ id.basis.points ∧ 1 ≤ id.comps.length) →
      ∃ m', eachOutput f outs m = .ok () m' ∧ Only S outs m m' := by
  intro outs
  induction outs with
  | nil => intro m h hL _ _; exact ⟨m, rfl, .self h hL⟩
  | cons s ids ih =>
    intro m h hL hM hS
    obtain ⟨hs, hp, hn⟩ := hS s List.mem_cons_self
    obtain ⟨a, m1, k1, k2, k3, k4⟩ := output_only h hL hs
    have same : eachOutput f (s :: ids) m = eachOutput f (s :: ids) m1 := by
      unfold eachOutput
      rw [SM.bind_ok k1, SM.bind_ok (outputVar_existing k2.good hs k4)]
    obtain ⟨u, hu⟩ := stores_exist k2.laid (k2.exist s (by simp))
    obtain ⟨m2, u', e2, g2, l2, x2, o2, s2⟩ := one ids k2.good k2.laid (by rw [k2.grid]; exact hM) hs hu hp hn
    have K2 : Only S [s] m1 m2 := .of g2 l2 x2 (fun id hid => o2 id (by simpa using hid)) (fun id hid => by
      obtain rfl : id = s := by simpa using hid
      exact s2.exists)
    obtain ⟨m3, e3, K3⟩ := ih g2 l2 (by rw [K2.grid, k2.grid]; exact hM) (fun id hid => hS id (List.mem_cons_of_mem _ hid))
    refine ⟨m3, by rw [same, e2, e3], ?_⟩
    have K := (k2.trans K2).trans K3
    refine ⟨K.good, K.laid, K.grid, K.dt, fun id hid => K.kept id ?_, fun id hid => K.exist id ?_⟩
    · simpa using hid
    · simpa using hid

omit [Arith α] in
theorem directions_wide {M : Box} {dims : List Int} (h : Known.directions M dims = true) : ∃ ds : List Nat, dims = ints ds ∧ Wide 2 M ds := by
  unfold Known.directions at h
  simp only [List.all_eq_true, decide_eq_true_eq] at h
  refine ⟨dims.map Int.toNat, ?_, ?_⟩
  · unfold ints
    rw [List.map_map]
    conv_lhs => rw [← List.map_id dims]
    refine List.map_congr_left fun d hd => ?_
    have := (h d hd).1
    simp only [id, Function.comp]
    omega
  · intro i hi'
    obtain ⟨d, hd, rfl⟩ := List.mem_map.1 hi'
    have := h d hd
    exact ⟨by omega, this.2.2⟩

/-- The five kinds of boundary conditions. -/
theorem bc_only {M : Box} {dims : List Int} {outs : List VarId} (h : m.Good S) (hL : m.Laid) (hM : m.grid.rng.dims = M) (hd : Known.directions M dims = true)
    (hS : ∀ id ∈ outs, S id ∧ 1 ≤ id.basis.points ∧ 1 ≤ id.comps.length) :
    (∃ m', periodic dims outs m = .ok () m' ∧ Only S outs m m') ∧ (∃ m', copyOut dims outs m = .ok () m' ∧ Only S outs m m') ∧
    (∃ m', noSlip dims outs m = .ok () m' ∧ Only S outs m m') ∧ (∃ m', freeSlip dims outs m = .ok () m' ∧ Only S outs m m') ∧
    (∃ m', conductingWall dims outs m = .ok () m' ∧ Only S outs m m') := by
  obtain ⟨ds, rfl, hds⟩ := directions_wide hd
  have slip : ∃ m', noSlip (ints ds) outs m = .ok () m' ∧ Only S outs m m' := by
    refine each_only (M := M) (fun {m0 s u} ids g l hM hs hu hp hn => ?_) outs h hL hM hS
    by_cases h4 : 4 ≤ s.comps.length
    · obtain ⟨m', u', a1, a2, a3, a4, a5, a6, a7⟩ := noSlip_one g l hs hp h4 hu (ds := ds) (by rw [hM]; exact hds) ids
      exact ⟨m', u', a1, a2, a3, a4, a5, a6⟩
    · obtain ⟨m', u', a1, a2, a3, a4, a5, a6, a7⟩ := wall_few (clo := 1) g l hs hp hn (by omega) hu (ds := ds) (by rw [hM]; exact hds) ids
      exact ⟨m', u', a1, a2, a3, a4, a5, a6⟩
  refine ⟨?_, ?_, slip, slip, ?_⟩
  · refine each_only (M := M) (fun {m0 s u} ids g l hM hs hu hp hn => ?_) outs h hL hM hS
    obtain ⟨m', u', a1, a2, a3, a4, a5, a6, a7⟩ := periodic_one g l hs hp hn hu (ds := ds) (by rw [hM]; exact hds) ids
    exact ⟨m', u', a1, a2, a3, a4, a5, a6⟩
  · refine each_only (M := M) (fun {m0 s u} ids g l hM hs hu hp hn => ?_) outs h hL hM hS
    obtain ⟨m', u', a1, a2, a3, a4, a5, a6, a7⟩ := copyOut_one g l hs hp hn hu (ds := ds) (by rw [hM]; exact hds) ids
    exact ⟨m', u', a1, a2, a3, a4, a5, a6⟩
  · refine each_only (M := M) (fun {m0 s u} ids g l hM hs hu hp hn => ?_) outs h hL hM hS
    by_cases h4 : 4 ≤ s.comps.length
    · obtain ⟨m', u', a1, a2, a3, a4, a5, a6, a7⟩ := conductingWall_one g l hs hp h4 hu (ds := ds) (by rw [hM]; exact hds) ids
      exact ⟨m', u', a1, a2, a3, a4, a5, a6⟩
    · obtain ⟨m', u', a1, a2, a3, a4, a5, a6, a7⟩ := wall_few (clo := 0) g l hs hp hn (by omega) hu (ds := ds) (by rw [hM]; exact hds) ids
      exact ⟨m', u', a1, a2, a3, a4, a5, a6⟩

/-- Reading and writing one variable each. -/
theorem flux_only {r s : VarId} (h : m.Good S) (hL : m.Laid) (hr : S r) (hne : s ≠ r) (hs : m.contents s ≠ none)
    {f : SM (Mgr α) Unit} (again : ∀ {a m1}, outputVar r m = .ok a m1 → m1.Good S → m.Extends m1 → m1.addr r = some a → f m = f m1)
    (body : ∀ {m1 : Mgr α} {u v : Cell → α}, m1.Good S → m1.Laid → m1.grid = m.grid → m1.dt = m.dt → m1.Stores s u → m1.Stores r v →
      ∃ m' v', f m1 = .ok () m' ∧ m'.Good S ∧ m'.Laid ∧ m1.Extends m' ∧ (∀ id, id ≠ r → m'.contents id = m1.contents id) ∧ m'.Stores r v') :
    ∃ m', f m = .ok () m' ∧ Only S [r] m m' := by
  obtain ⟨a, m1, k1, k2, k3, k4⟩ := output_only h hL hr
  obtain ⟨u, hu⟩ := stores_exist k2.laid (k2.still hs)
  obtain ⟨v, hv⟩ := stores_exist k2.laid (k2.exist r (by simp))
  obtain ⟨m2, v', e2, g2, l2, x2, o2, s2⟩ := body k2.good k2.laid k2.grid k3.dt hu hv
  refine ⟨m2, by rw [again k1 k2.good k3 k4, e2], ?_⟩
  have K2 : Only S [r] m1 m2 := .of g2 l2 x2 (fun id hid => o2 id (by simpa using hid)) (fun id hid => by
    obtain rfl : id = r := by simpa using hid
    exact s2.exists)
  have K := k2.trans K2
  exact ⟨K.good, K.laid, K.grid, K.dt, fun id hid => K.kept id (by simpa using hid), fun id hid => K.exist id (by simpa using hid)⟩

omit [Arith α] in
theorem pairs_even : ∀ {l : List VarId}, Known.pairs l = true → ∃ n, l.length = 2 * n
  | [], _ => ⟨0, rfl⟩
  | [_], h => by simp [Known.pairs] at h
  | x :: y :: l, h => by
    simp only [Known.pairs, Bool.and_eq_true] at h
    obtain ⟨n, hn⟩ := pairs_even h.2
    exact ⟨n + 1, by simp [hn]; omega⟩

omit [Arith α] in
theorem pairs_partner : ∀ {l : List VarId}, Known.pairs l = true → ∀ id, (partner l id).basis.points = id.basis.points ∧ (partner l id).comps.length = id.comps.length
  | [], _, _ => ⟨rfl, rfl⟩
  | [_], h, _ => by simp [Known.pairs] at h
  | x :: y :: l, h, id => by
    simp only [Known.pairs, Bool.and_eq_true, decide_eq_true_eq] at h
    rw [partner]
    split
    · rename_i e; subst e; exact ⟨h.1.1.symm, h.1.2.symm⟩
    split
    · rename_i e; subst e; exact h.1
    exact pairs_partner h.2 id

theorem swap_only {outs : List VarId} (h : m.Good S) (hL : m.Laid) (hex : ∀ id ∈ outs, m.contents id ≠ none) (hnd : outs.Nodup) (hp : Known.pairs outs = true) :
    ∃ m', swap outs m = .ok () m' ∧ Only S outs m m' := by
  obtain ⟨n, hn⟩ := pairs_even hp
  obtain ⟨m', h1, h2, h3, h4, h5⟩ := swapLoop_spec n outs hn hnd h hex
  refine ⟨m', ?_, .of h2 ?_ h3 ?_ ?_⟩
  · unfold Solve.swap; rw [if_neg (by omega)]; exact h1
  · intro id c hc
    rw [h5] at hc
    obtain ⟨e1, e2⟩ := pairs_partner hp id
    have := hL _ _ hc
    rw [e1, e2] at this
    rw [h3.grid]; exact this
  · intro id hid
    rw [h5, partner_notMem hid]
  · intro id hid
    rw [h5]
    exact hex _ (swapLoop_spec.partner_mem hid)

theorem initial_exist (hL : m.Laid) (id : VarId) : ∃ v, m.Initial id v := by
  by_cases e : m.contents id = none
  · exact ⟨fun _ => Arith.lit 0, .inr ⟨e, rfl⟩⟩
  · obtain ⟨v, hv⟩ := stores_exist hL e
    exact ⟨v, .inl hv⟩

omit [Arith α] in
theorem known_of (h : m.Good S) {id : VarId} (e : m.contents id ≠ none) : S id := by
  obtain ⟨c, hc⟩ := Option.ne_none_iff_exists'.1 e
  obtain ⟨a, ha⟩ := exists_addr h hc
  exact h.key_of_addr ha

omit [Arith α] in
theorem Known.Holds.after {k : Known} {c : Call α} (H : k.Holds m) (O : Only S c.writes m m') (hd : ∀ t, c = .setDt t → m'.dt ≠ none) : (k.after c).Holds m' := by
  refine ⟨?_, ?_⟩
  · intro id hid
    rcases List.mem_append.1 hid with e | e
    · exact O.exist id e
    · exact O.still (H.exist id e)
  · intro e
    unfold Known.after at e
    cases c with
    | setDt t => exact hd t rfl
    | _ => exact O.dt (H.dt e)

/-- A call that fits returns. -/
theorem call_only {names : List VarId} {M : Box} {k : Known} {c : Call α} (h : m.Good (· ∈ names)) (hL : m.Laid) (hM : m.grid.rng.dims = M)
    (hdx : m.grid.dxs.length = m.grid.rng.dims.length) (H : k.Holds m) (hc : k.allows M c = true) (hw : c.writes.all (· ∈ names) = true)
    (hown : ∀ f r w, c = .own f r w → Behaves (· ∈ names) m.grid (f, r, w)) :
    ∃ m', c.run m = .ok () m' ∧ Only (· ∈ names) c.writes m m' ∧ (k.after c).Holds m' := by
  have hw' : ∀ id ∈ c.writes, id ∈ names := by simpa using hw
  suffices hs : ∃ m', c.run m = .ok () m' ∧ Only (· ∈ names) c.writes m m' ∧ ∀ t, c = .setDt t → m'.dt ≠ none by
    obtain ⟨m', a, b, d⟩ := hs
    exact ⟨m', a, b, H.after b d⟩
  have plain : (∀ t, c ≠ .setDt t) → (∃ m', c.run m = .ok () m' ∧ Only (· ∈ names) c.writes m m') →
      ∃ m', c.run m = .ok () m' ∧ Only (· ∈ names) c.writes m m' ∧ ∀ t, c = .setDt t → m'.dt ≠ none := by
    rintro ne ⟨m', a, b⟩
    exact ⟨m', a, b, fun t e => absurd e (ne t)⟩
  have clock : k.dt = true → ∃ t, m.dt = some t := fun e => Option.ne_none_iff_exists'.1 (H.dt e)
  cases c with
  | output id =>
    refine plain (by simp) ?_
    obtain ⟨a, m1, k1, k2, -, -⟩ := output_only h hL (hw' id (by simp [Call.writes]))
    refine ⟨m1, ?_, k2⟩
    show (outputVar id >>= fun _ => pure ()) m = _
    rw [SM.bind_ok k1]; rfl
  | setDt t =>
    refine ⟨m.setDt t, rfl, ⟨Mgr.setDt_good h t, hL, rfl, fun _ => by simp [Mgr.setDt], fun _ _ => rfl, by simp [Call.writes]⟩, fun _ _ => by simp [Mgr.setDt]⟩
  | setTime t =>
    refine plain (by simp) ⟨m.setTime t, rfl, ⟨Mgr.setTime_good' h t, hL, rfl, fun d => d, fun _ _ => rfl, by simp [Call.writes]⟩⟩
  | fill outs value =>
    refine plain (by simp) ?_
    obtain ⟨m', a1, a2, a3, a4, a5, a6⟩ := fill_fields value outs h hL hw'
    exact ⟨m', a1, .of a2 a3 a4 a6 fun id hid => (a5 id hid).exists⟩
  | swap outs =>
    refine plain (by simp) ?_
    simp only [Known.allows, Bool.and_eq_true, List.all_eq_true, decide_eq_true_eq] at hc
    exact swap_only h hL (fun id hid => H.exist id (hc.1.1 id hid)) hc.1.2 hc.2
  | periodic dims outs =>
    refine plain (by simp) ?_
    simp only [Known.allows, Bool.and_eq_true, List.all_eq_true] at hc
    exact (bc_only h hL hM hc.1 fun id hid => ⟨hw' id hid, by simpa [Known.hasValues] using hc.2 id hid⟩).1
  | copyOut dims outs =>
    refine plain (by simp) ?_
    simp only [Known.allows, Bool.and_eq_true, List.all_eq_true] at hc
    exact (bc_only h hL hM hc.1 fun id hid => ⟨hw' id hid, by simpa [Known.hasValues] using hc.2 id hid⟩).2.1
  | noSlip dims outs =>
    refine plain (by simp) ?_
    simp only [Known.allows, Bool.and_eq_true, List.all_eq_true] at hc
    exact (bc_only h hL hM hc.1 fun id hid => ⟨hw' id hid, by simpa [Known.hasValues] using hc.2 id hid⟩).2.2.1
  | freeSlip dims outs =>
    refine plain (by simp) ?_
    simp only [Known.allows, Bool.and_eq_true, List.all_eq_true] at hc
    exact (bc_only h hL hM hc.1 fun id hid => ⟨hw' id hid, by simpa [Known.hasValues] using hc.2 id hid⟩).2.2.2.1
  | conductingWall dims outs =>
    refine plain (by simp) ?_
    simp only [Known.allows, Bool.and_eq_true, List.all_eq_true] at hc
    exact (bc_only h hL hM hc.1 fun id hid => ⟨hw' id hid, by simpa [Known.hasValues] using hc.2 id hid⟩).2.2.2.2
  | euler gamma ins outs =>
    refine plain (by simp) ?_
    match ins, outs, hc with
    | [q], [r], hc =>
      simp [Known.allows, Known.alike] at hc
      obtain ⟨⟨hd, hq, hne, h4⟩, hal⟩ := hc
      obtain ⟨t, ht⟩ := clock hd
      have hr : r ∈ names := hw' r (by simp [Call.writes])
      have hq' := known_of h (H.exist q hq)
      refine flux_only h hL hr hne (H.exist q hq) (f := Solve.euler gamma [q] [r]) ?_ ?_
      · intro b m1 e1 g1 x1 b1
        obtain ⟨c, hc'⟩ := Option.ne_none_iff_exists'.1 (H.exist q hq)
        obtain ⟨a, ha⟩ := exists_addr h hc'
        unfold Solve.euler
        simp only
        rw [SM.bind_ok (inputVar_existing h hq' ha), SM.bind_ok e1, SM.bind_ok (inputVar_existing g1 hq' (x1.addr _ _ ha)), SM.bind_ok (outputVar_existing g1 hr b1)]
      · intro m1 u v g1 l1 e1 e2 hu hv
        obtain ⟨m', v', a1, a2, a3, a4, a5, a6, -⟩ := euler_fields gamma g1 l1 (t := t) (by rw [e2]; exact ht) (by rw [e1]; exact hdx) (by rw [e1, hM]; exact h4) hq' hr hne
          (p := q.basis.points) (by omega) rfl (by omega) (by omega) (by omega) hu hv
        exact ⟨m', v', a1, a2, a3, a4, a5, a6⟩
  | maxwell c ins outs =>
    refine plain (by simp) ?_
    match ins, outs, hc with
    | [q], [r], hc =>
      simp [Known.allows, Known.alike] at hc
      obtain ⟨⟨hq, hne⟩, hal⟩ := hc
      have hr : r ∈ names := hw' r (by simp [Call.writes])
      have hq' := known_of h (H.exist q hq)
      refine flux_only h hL hr hne (H.exist q hq) (f := Solve.maxwell c [q] [r]) ?_ ?_
      · intro b m1 e1 g1 x1 b1
        obtain ⟨c, hc'⟩ := Option.ne_none_iff_exists'.1 (H.exist q hq)
        obtain ⟨a, ha⟩ := exists_addr h hc'
        unfold Solve.maxwell
        simp only
        rw [SM.bind_ok (inputVar_existing h hq' ha), SM.bind_ok e1, SM.bind_ok (inputVar_existing g1 hq' (x1.addr _ _ ha)), SM.bind_ok (outputVar_existing g1 hr b1)]
      · intro m1 u v g1 l1 e1 e2 hu hv
        obtain ⟨m', v', a1, a2, a3, a4, a5, a6, -⟩ := maxwell_fields c g1 l1 (by rw [e1]; exact hdx) hq' hr hne
          (p := q.basis.points) (by omega) rfl (by omega) (by omega) (by omega) hu hv
        exact ⟨m', v', a1, a2, a3, a4, a5, a6⟩
  | lorentz com ins outs =>
    refine plain (by simp) ?_
    match ins, outs, hc with
    | [q, f], [r], hc =>
      simp [Known.allows] at hc
      obtain ⟨hq, hf, n1, n2, hp, p1, p2, c1, c2, c3⟩ := hc
      have hr : r ∈ names := hw' r (by simp [Call.writes])
      obtain ⟨u, hu⟩ := stores_exist hL (H.exist q hq)
      obtain ⟨w, hw1⟩ := stores_exist hL (H.exist f hf)
      obtain ⟨v, hv⟩ := initial_exist hL r
      obtain ⟨m', v', a1, a2, a3, a4, a5, a6, -⟩ := C60_lorentz com h hL (known_of h (H.exist q hq)) (known_of h (H.exist f hf)) hr n1 n2 hp p1 p2 c1 c2 c3 hu hw1 hv
      refine ⟨m', a1, .of a2 a3 a4 (fun id hid => a5 id (by simpa [Call.writes] using hid)) fun id hid => ?_⟩
      obtain rfl : id = r := by simpa [Call.writes] using hid
      exact a6.exists
  | current mults ins outs =>
    refine plain (by simp) ?_
    match outs, hc with
    | [r], hc =>
      simp [Known.allows] at hc
      obtain ⟨⟨hlen, hr3, hrp⟩, hin⟩ := hc
      have hr : r ∈ names := hw' r (by simp [Call.writes])
      obtain ⟨v, hv⟩ := initial_exist hL r
      have fields : ∃ u : VarId → Cell → α, ∀ q ∈ ins, m.Stores q (u q) := by
        refine ⟨fun q => if hq : m.contents q = none then fun _ => Arith.lit 0 else (stores_exist hL hq).choose, fun q hq => ?_⟩
        simp only
        rw [dif_neg (H.exist q (hin q hq).1)]
        exact (stores_exist hL (H.exist q (hin q hq).1)).choose_spec
      obtain ⟨u, hu⟩ := fields
      obtain ⟨m', v', a1, a2, a3, a4, a5, a6, -⟩ := C61_current h hL hr hrp rfl hr3 hlen (u := u)
        (fun q hq => ⟨known_of h (H.exist q (hin q hq).1), (hin q hq).2.1, (hin q hq).2.2.2, (hin q hq).2.2.1, hu q hq⟩) hv
      refine ⟨m', a1, .of a2 a3 a4 (fun id hid => a5 id (by simpa [Call.writes] using hid)) fun id hid => ?_⟩
      obtain rfl : id = r := by simpa [Call.writes] using hid
      exact a6.exists
  | rk1 ins outs tag =>
    refine plain (by simp) ?_
    match ins, outs, hc with
    | [q, r], q1 :: os, hc =>
      simp [Known.allows] at hc
      obtain ⟨hd, hq, hr, n1, n2, c1, c2, b1, b2⟩ := hc
      obtain ⟨t, ht⟩ := clock hd
      obtain ⟨u, hu⟩ := stores_exist hL (H.exist q hq)
      obtain ⟨w, hw1⟩ := stores_exist hL (H.exist r hr)
      obtain ⟨m', a1, a2, a3, a4, a5, a6, a7⟩ := C49_rk1 (S := (· ∈ names)) (q := q) (rhs := r) (q1 := q1) (by
        intro id hid
        simp only [List.mem_cons, List.not_mem_nil, or_false] at hid
        rcases hid with rfl | rfl | rfl
        · exact known_of h (H.exist _ hq)
        · exact known_of h (H.exist _ hr)
        · exact hw' _ (by simp [Call.writes])) n1 n2 ⟨c1, c2⟩ ⟨b1, b2⟩ h hL ht hu hw1 os tag
      refine ⟨m', a1, .of a2 a3 a4 (fun id hid => a5 id (by simpa [Call.writes] using hid)) fun id hid => ?_⟩
      obtain rfl : id = q1 := by simpa [Call.writes] using hid
      by_cases e : tag = 0
      · exact (a6 e).exists
      · rw [a7 e]; simp
  | ssprk3 ins outs tag =>
    refine plain (by simp) ?_
    match ins, outs, hc with
    | [q, r], q1 :: q2 :: q3 :: os, hc =>
      simp only [Known.allows, Bool.and_eq_true, List.all_eq_true, decide_eq_true_eq] at hc
      obtain ⟨⟨hd, hq, hr, hnd⟩, hal⟩ := hc
      obtain ⟨t, ht⟩ := clock hd
      have V : RKVars (· ∈ names) q r q1 q2 q3 := by
        refine ⟨?_, hnd, fun id hid => (hal id hid).1, fun id hid => (hal id hid).2⟩
        intro id hid
        simp only [List.mem_cons, List.not_mem_nil, or_false] at hid
        rcases hid with rfl | rfl | rfl | rfl | rfl
        · exact known_of h (H.exist _ hq)
        · exact known_of h (H.exist _ hr)
        all_goals exact hw' _ (by simp [Call.writes])
      obtain ⟨m', a1, a2, a3, a4, a5, a6⟩ := C49_ssprk3 V h hL ht (H.exist q hq) (H.exist r hr) os tag
      refine ⟨m', a1, .of a2 a3 a4 (fun id hid => a5 id (by simpa [Call.writes] using hid)) fun id hid => ?_⟩
      obtain ⟨c0, e0⟩ := Option.ne_none_iff_exists'.1 (H.exist q hq)
      obtain ⟨c1, e1⟩ := Option.ne_none_iff_exists'.1 (H.exist r hr)
      have hid : id = q1 ∨ id = q2 ∨ id = q3 := by simpa [Call.writes] using hid
      rcases hid with rfl | rfl | rfl
      · by_cases e : tag = 0
        · subst e
          obtain ⟨m2, c, b1, -, -, -, b2, -⟩ := ssprk3_stage0 V h hL ht e0 e1 os
          rw [b1] at a1; cases a1
          rw [b2]; simp
        · rw [a6 0 _ rfl e]; simp
      · by_cases e : tag = 1
        · subst e
          obtain ⟨m2, d, c, b1, -, -, -, -, b2, -⟩ := ssprk3_stage1 V h hL ht e0 e1 os
          rw [b1] at a1; cases a1
          rw [b2]; simp
        · rw [a6 1 _ rfl e]; simp
      · by_cases e : tag = 2
        · subst e
          obtain ⟨m2, d, c, b1, -, -, -, -, b2, -⟩ := ssprk3_stage2 V h hL ht e0 e1 os
          rw [b1] at a1; cases a1
          rw [b2]; simp
        · rw [a6 2 _ rfl e]; simp
  | own f r w =>
    refine plain (by simp) ?_
    simp only [Known.allows, List.all_eq_true, decide_eq_true_eq] at hc
    exact hown f r w rfl m h hL rfl fun id hid => H.exist id (hc id hid)

/-- `k'` knows at least as much as `k`. -/
def Known.le (k k' : Known) : Prop := (∀ id ∈ k.ids, id ∈ k'.ids) ∧ (k.dt = true → k'.dt = true)

theorem Known.le.trans {k k' k'' : Known} (a : k.le k') (b : k'.le k'') : k.le k'' :=
  ⟨fun id h => b.1 id (a.1 id h), fun h => b.2 (a.2 h)⟩

theorem Known.le.holds {k k' : Known} (a : k.le k') (H : k'.Holds m) : k.Holds m := ⟨fun id h => H.exist id (a.1 id h), fun h => H.dt (a.2 h)⟩

theorem Known.le_after (k : Known) (c : Call α) : k.le (k.after c) := by
  refine ⟨fun id h => List.mem_append.2 (.inr h), fun h => ?_⟩
  unfold Known.after
  cases c <;> simp [h]

theorem Known.after_le {k k' : Known} (h : k.le k') (c : Call α) : (k.after c).le (k'.after c) := by
  refine ⟨fun id e => ?_, ?_⟩
  · unfold Known.after at e ⊢
    rcases List.mem_append.1 e with e | e
    · exact List.mem_append.2 (.inl e)
    · exact List.mem_append.2 (.inr (h.1 id e))
  · unfold Known.after
    cases c <;> simp <;> exact h.2

/-- Knowing more, the checker allows more. -/
theorem Known.allows_le {M : Box} {k k' : Known} (h : k.le k') {c : Call α} (hc : k.allows M c = true) : k'.allows M c = true := by
  have a := h.1
  have b := h.2
  unfold Known.allows at hc ⊢
  split at hc <;> simp_all

theorem Known.check_le {names : List VarId} {M : Box} : ∀ {p : Client α} {k k1 k' : Known}, k.le k1 → Known.check names M k p = some k' →
    ∃ k1', Known.check names M k1 p = some k1' ∧ k'.le k1'
  | .call c, k, k1, k', h, e => by
    unfold Known.check at e ⊢
    split at e
    · rename_i hc
      simp only [Option.some.injEq] at e
      subst e
      simp only [Bool.and_eq_true] at hc
      rw [if_pos (by simp only [Bool.and_eq_true]; exact ⟨Known.allows_le h hc.1, hc.2⟩)]
      exact ⟨_, rfl, Known.after_le h c⟩
    · cases e
  | .skip, k, k1, k', h, e => by
    unfold Known.check at e ⊢
    cases e
    exact ⟨_, rfl, h⟩
  | .seq p q, k, k1, k', h, e => by
    unfold Known.check at e ⊢
    obtain ⟨k2, e1, e2⟩ := Option.bind_eq_some_iff.1 e
    obtain ⟨k3, f1, f2⟩ := Known.check_le h e1
    obtain ⟨k4, g1, g2⟩ := Known.check_le f2 e2
    exact ⟨k4, by rw [f1]; exact g1, g2⟩
  | .loop n p, k, k1, k', h, e => by
    unfold Known.check at e ⊢
    obtain ⟨k2, e1, e2⟩ := Option.map_eq_some_iff.1 e
    obtain ⟨k3, f1, f2⟩ := Known.check_le h e1
    refine ⟨_, by rw [f1]; rfl, ?_⟩
    subst e2
    split <;> assumption
  | .branch b p q, k, k1, k', h, e => by
    unfold Known.check at e ⊢
    obtain ⟨k2, e1, e2⟩ := Option.bind_eq_some_iff.1 e
    obtain ⟨k3, e3, e4⟩ := Option.map_eq_some_iff.1 e2
    obtain ⟨k4, f1, f2⟩ := Known.check_le h e1
    obtain ⟨k5, g1, g2⟩ := Known.check_le h e3
    refine ⟨_, by rw [f1, g1]; rfl, ?_⟩
    subst e4
    refine ⟨fun id hid => ?_, ?_⟩
    · simp only [List.mem_filter, decide_eq_true_eq] at hid ⊢
      exact ⟨f2.1 _ hid.1, g2.1 _ hid.2⟩
    · simp only [Bool.and_eq_true]
      exact fun ⟨x, y⟩ => ⟨f2.2 x, g2.2 y⟩

theorem Known.le_check {names : List VarId} {M : Box} : ∀ {p : Client α} {k k' : Known}, Known.check names M k p = some k' → k.le k'
  | .call c, k, k', e => by
    unfold Known.check at e
    split at e
    · cases e; exact Known.le_after k c
    · cases e
  | .skip, k, k', e => by
    unfold Known.check at e
    cases e
    exact ⟨fun _ h => h, fun h => h⟩
  | .seq p q, k, k', e => by
    unfold Known.check at e
    obtain ⟨k2, e1, e2⟩ := Option.bind_eq_some_iff.1 e
    exact (Known.le_check e1).trans (Known.le_check e2)
  | .loop n p, k, k', e => by
    unfold Known.check at e
    obtain ⟨k2, e1, e2⟩ := Option.map_eq_some_iff.1 e
    subst e2
    split
    · exact ⟨fun _ h => h, fun h => h⟩
    · exact Known.le_check e1
  | .branch b p q, k, k', e => by
    unfold Known.check at e
    obtain ⟨k2, e1, e2⟩ := Option.bind_eq_some_iff.1 e
    obtain ⟨k3, e3, e4⟩ := Option.map_eq_some_iff.1 e2
    subst e4
    have A := Known.le_check e1
    have B := Known.le_check e3
    refine ⟨fun id hid => ?_, ?_⟩
    · simp only [List.mem_filter, decide_eq_true_eq]
      exact ⟨A.1 _ hid, B.1 _ hid⟩
    · simp only [Bool.and_eq_true]
      exact fun x => ⟨A.2 x, B.2 x⟩

/-- Effect of code that writes at most the variables `ws`. -/
structure Within (S : VarId → Prop) (ws : List VarId) (m m' : Mgr α) : Prop where
  good : m'.Good S
  laid : m'.Laid
  grid : m'.grid = m.grid
  kept : ∀ id, id ∉ ws → m'.contents id = m.contents id

/-- A program that passes the checker returns. -/
theorem client_within {names : List VarId} {M : Box} : ∀ (p : Client α) {k k' : Known} {m : Mgr α}, m.Good (· ∈ names) → m.Laid → m.grid.rng.dims = M →
    m.grid.dxs.length = m.grid.rng.dims.length → k.Holds m → Known.check names M k p = some k' →
    (∀ f ∈ p.owns, Behaves (· ∈ names) m.grid f) → ∃ m', p.run m = .ok () m' ∧ Within (· ∈ names) p.writes m m' ∧ k'.Holds m'
  | .call c, k, k', m, h, hL, hM, hdx, H, e, ho => by
    unfold Known.check at e
    split at e
    · rename_i hc
      simp only [Bool.and_eq_true] at hc
      cases e
      obtain ⟨m', a1, a2, a3⟩ := call_only h hL hM hdx H hc.1 hc.2 (fun f r w e => ho _ (by subst e; simp [Client.owns]))
      exact ⟨m', a1, ⟨a2.good, a2.laid, a2.grid, a2.kept⟩, a3⟩
    · cases e
  | .skip, k, k', m, h, hL, hM, hdx, H, e, ho => by
    unfold Known.check at e
    cases e
    exact ⟨m, rfl, ⟨h, hL, rfl, fun _ _ => rfl⟩, H⟩
  | .seq p q, k, k', m, h, hL, hM, hdx, H, e, ho => by
    unfold Known.check at e
    obtain ⟨k2, e1, e2⟩ := Option.bind_eq_some_iff.1 e
    obtain ⟨m1, a1, a2, a3⟩ := client_within p h hL hM hdx H e1 (fun f hf => ho f (List.mem_append.2 (.inl hf)))
    obtain ⟨m2, b1, b2, b3⟩ := client_within q a2.good a2.laid (by rw [a2.grid]; exact hM) (by rw [a2.grid]; exact hdx) a3 e2
      (fun f hf => by rw [a2.grid]; exact ho f (List.mem_append.2 (.inr hf)))
    refine ⟨m2, ?_, ⟨b2.good, b2.laid, b2.grid.trans a2.grid, fun id hid => ?_⟩, b3⟩
    · show (p.run >>= fun _ => q.run) m = _
      rw [SM.bind_ok a1]; exact b1
    · simp only [Client.writes, List.mem_append, not_or] at hid
      rw [b2.kept id hid.2, a2.kept id hid.1]
  | .loop n p, k, k', m, h, hL, hM, hdx, H, e, ho => by
    unfold Known.check at e
    obtain ⟨k2, e1, e2⟩ := Option.map_eq_some_iff.1 e
    have body := fun {k k' : Known} {m : Mgr α} => client_within (names := names) (M := M) p (k := k) (k' := k') (m := m)
    have all : ∀ (n : Nat) (k k2 : Known) (m0 : Mgr α), m0.Good (· ∈ names) → m0.Laid → m0.grid = m.grid → k.Holds m0 → Known.check names M k p = some k2 →
        ∃ m', (Client.loop n p).run m0 = .ok () m' ∧ Within (· ∈ names) p.writes m0 m' ∧ (if n = 0 then k else k2).Holds m' := by
      intro n
      induction n with
      | zero => exact fun k k2 m0 h hL _ H _ => ⟨m0, rfl, ⟨h, hL, rfl, fun _ _ => rfl⟩, H⟩
      | succ n ih =>
        intro k k2 m0 h hL hg H e1
        obtain ⟨m1, a1, a2, a3⟩ := body h hL (by rw [hg]; exact hM) (by rw [hg]; exact hdx) H e1 (by rw [hg]; exact ho)
        obtain ⟨k3, f1, f2⟩ := Known.check_le (Known.le_check e1) e1
        obtain ⟨m2, b1, b2, b3⟩ := ih k2 k3 m1 a2.good a2.laid (a2.grid.trans hg) a3 f1
        refine ⟨m2, ?_, ⟨b2.good, b2.laid, b2.grid.trans a2.grid, fun id hid => (b2.kept id hid).trans (a2.kept id hid)⟩, ?_⟩
        · show (p.run >>= fun _ => (Client.loop n p).run) m0 = _
          rw [SM.bind_ok a1]; exact b1
        · rw [if_neg (by omega)]
          split at b3
          · exact b3
          · exact (Known.le_check f1).holds b3
    obtain ⟨m', a1, a2, a3⟩ := all n k k2 m h hL rfl H e1
    subst e2
    exact ⟨m', a1, a2, a3⟩
  | .branch b p q, k, k', m, h, hL, hM, hdx, H, e, ho => by
    unfold Known.check at e
    obtain ⟨k2, e1, e2⟩ := Option.bind_eq_some_iff.1 e
    obtain ⟨k3, e3, e4⟩ := Option.map_eq_some_iff.1 e2
    subst e4
    by_cases hb : b m = true
    · obtain ⟨m1, a1, a2, a3⟩ := client_within p h hL hM hdx H e1 (fun f hf => ho f (List.mem_append.2 (.inl hf)))
      refine ⟨m1, ?_, ⟨a2.good, a2.laid, a2.grid, fun id hid => a2.kept id ?_⟩, ?_⟩
      · show (if b m then p.run else q.run) m = _
        rw [if_pos hb]; exact a1
      · simp only [Client.writes, List.mem_append, not_or] at hid; exact hid.1
      · refine ⟨fun id hid => a3.exist id (List.mem_filter.1 hid).1, fun d => a3.dt ?_⟩
        simp only [Bool.and_eq_true] at d; exact d.1
    · obtain ⟨m1, a1, a2, a3⟩ := client_within q h hL hM hdx H e3 (fun f hf => ho f (List.mem_append.2 (.inr hf)))
      refine ⟨m1, ?_, ⟨a2.good, a2.laid, a2.grid, fun id hid => a2.kept id ?_⟩, ?_⟩
      · show (if b m then p.run else q.run) m = _
        rw [if_neg hb]; exact a1
      · simp only [Client.writes, List.mem_append, not_or] at hid; exact hid.2
      · refine ⟨fun id hid => a3.exist id ?_, fun d => a3.dt ?_⟩
        · simpa using (List.mem_filter.1 hid).2
        · simp only [Bool.and_eq_true] at d; exact d.2

end
end QK
