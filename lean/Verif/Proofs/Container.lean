import Verif.Model.Container
import Verif.Proofs.Indexer
import Verif.Spec.Contents
/- Lemmas about containers. -/
namespace QK
open Spec

theorem iter_ok_inv {σ ρ : Type _} {f : σ → Res (σ ⊕ ρ)} (P : σ → Prop) (Q : ρ → Prop)
    (hinl : ∀ s s', P s → f s = .ok (.inl s') → P s')
    (hinr : ∀ s r, P s → f s = .ok (.inr r) → Q r) {s : σ} {r : ρ} (hs : P s)
    (h : iter f s = .ok r) : Q r := by
  have hex : ∃ n, iterN f n s ≠ .diverge := by
    by_contra hno
    have : iter f s = .diverge := by
      rw [iter_eq_diverge_iff]
      intro n
      by_contra hn
      exact hno ⟨n, hn⟩
    rw [this] at h; cases h
  obtain ⟨n, hn⟩ := hex
  rw [iter_eq_of_iterN hn] at h
  clear hn
  induction n generalizing s with
  | zero => cases h
  | succ n ih =>
    rw [iterN_succ] at h
    obtain ⟨x, hx, h⟩ := Res.bind_eq_ok.1 h
    cases x with
    | inl s' => exact ih (hinl s s' hs hx) h
    | inr r' =>
      have : r' = r := by simpa using h
      subst this
      exact hinr s _ hs hx

namespace IFace
variable {α : Type}

/-- Class invariant: strides match bounds, one element per cell. -/
def WF (f : IFace α) : Prop := f.rng.WF ∧ (f.data.length : Int) = f.rng.volume

/-- Overwrite the element of a cell. -/
def write (f : IFace α) (c : Cell) (v : α) : IFace α :=
  { f with data := f.data.set (offset f.rng.dims c).toNat v }

@[simp] theorem write_rng (f : IFace α) (c : Cell) (v : α) : (f.write c v).rng = f.rng := rfl

theorem write_wf {f : IFace α} (h : f.WF) (c : Cell) (v : α) : (f.write c v).WF :=
  ⟨h.1, by simpa [write] using h.2⟩

theorem InBox_ne_nil {f : IFace α} (h : f.WF) {c : Cell} (hn : f.rng.dims ≠ [])
    (hc : InBox f.rng.dims c) : (offset f.rng.dims c).toNat < f.data.length := by
  have ho := offset_nonneg hc.pos hc
  have hv := h.1.volume_eq hn
  have := h.2
  omega

theorem val_isSome {f : IFace α} (h : f.WF) (hn : f.rng.dims ≠ []) {c : Cell}
    (hc : InBox f.rng.dims c) : ∃ v, f.val c = some v :=
  ⟨_, List.getElem?_eq_getElem (InBox_ne_nil h hn hc)⟩

theorem val_write {f : IFace α} (h : f.WF) (hn : f.rng.dims ≠ []) {c c' : Cell}
    (hc : InBox f.rng.dims c) (hc' : InBox f.rng.dims c') (v : α) :
    (f.write c v).val c' = if c' = c then some v else f.val c' := by
  have ho := offset_nonneg hc.pos hc
  have ho' := offset_nonneg hc'.pos hc'
  unfold val write
  simp only
  by_cases e : c' = c
  · subst e
    rw [if_pos rfl, List.getElem?_set_self (InBox_ne_nil h hn hc)]
  · rw [if_neg e, List.getElem?_set_ne]
    intro heq
    apply e
    exact offset_inj hc' hc (by omega)

/-- Offsets that are not the offset of the written cell are untouched, stated on the data. -/
theorem get_onCell {f : IFace α} (h : f.WF) (hn : f.rng.dims ≠ []) {c : Cell}
    (hc : InBox f.rng.dims c) (sub : Box) {v : α} (hv : f.val c = some v) :
    f.get (Indexer.onCell sub f.rng.dims c) = .ok v := by
  unfold get Indexer.onCell
  have ho := offset_nonneg hc.pos hc
  rw [vget_eq_ok_iff]
  exact ⟨ho.1, hv⟩

theorem put_onCell {f : IFace α} (h : f.WF) (hn : f.rng.dims ≠ []) {c : Cell}
    (hc : InBox f.rng.dims c) (sub : Box) (v : α) :
    f.put (Indexer.onCell sub f.rng.dims c) v = .ok (f.write c v) := by
  unfold put Indexer.onCell vset
  have ho := offset_nonneg hc.pos hc
  have hl := InBox_ne_nil h hn hc
  simp only
  rw [if_pos ⟨ho.1, by omega⟩]
  rfl

theorem vresize_length {zero : α} {d d' : List α} {n : Int} (h : vresize zero d n = .ok d') :
    (d'.length : Int) = n := by
  unfold vresize at h
  split at h
  · cases h
  · cases h
    simp
    omega

theorem resize_spec {zero : α} {f g : IFace α} {r : Range} (h : f.resize zero r = .ok g) :
    g.WF ∧ g.rng = r.copy := by
  unfold resize at h
  obtain ⟨d, hd, h⟩ := Res.bind_eq_ok.1 h
  cases h
  exact ⟨⟨Range.copy_wf r, vresize_length hd⟩, rfl⟩

theorem put_wf {f g : IFace α} (h : f.WF) {i : Indexer} {v : α} (hp : f.put i v = .ok g) :
    g.WF ∧ g.rng = f.rng := by
  unfold put at hp
  obtain ⟨d, hd, hp⟩ := Res.bind_eq_ok.1 hp
  cases hp
  unfold vset at hd
  split at hd
  · cases hd
    exact ⟨⟨h.1, by simpa using h.2⟩, rfl⟩
  · cases hd

theorem fill_wf {f : IFace α} (h : f.WF) (v : α) : (f.fill v).WF := ⟨h.1, by simpa [fill] using h.2⟩

theorem forEach_put_wf {f g : IFace α} (h : f.WF) {i : Indexer} {body : Indexer → IFace α → Res (IFace α)}
    (hbody : ∀ i (f' g' : IFace α), f'.WF → body i f' = .ok g' → g'.WF ∧ g'.rng = f'.rng)
    (hr : i.forEach body f = .ok g) : g.WF ∧ g.rng = f.rng := by
  unfold Indexer.forEach at hr
  refine iter_ok_inv (fun p : Indexer × IFace α => p.2.WF ∧ p.2.rng = f.rng)
    (fun g => g.WF ∧ g.rng = f.rng) ?_ ?_ ⟨h, rfl⟩ hr
  · rintro ⟨i, s⟩ ⟨i', s'⟩ hs hf
    simp only at hf
    split at hf
    · obtain ⟨s2, h2, hf⟩ := Res.bind_eq_ok.1 hf
      obtain ⟨i2, h3, hf⟩ := Res.bind_eq_ok.1 hf
      cases hf
      have := hbody _ _ _ hs.1 h2
      exact ⟨this.1, this.2.trans hs.2⟩
    · cases hf
  · rintro ⟨i, s⟩ r hs hf
    simp only at hf
    split at hf
    · obtain ⟨s2, h2, hf⟩ := Res.bind_eq_ok.1 hf
      obtain ⟨i2, h3, hf⟩ := Res.bind_eq_ok.1 hf
      cases hf
    · cases hf; exact hs

theorem fillSub_wf {f g : IFace α} (h : f.WF) {sub : Range} {v : α} (hr : f.fillSub sub v = .ok g) :
    g.WF ∧ g.rng = f.rng := by
  unfold fillSub at hr
  split at hr
  · cases hr
  · exact forEach_put_wf h (fun i f' g' h1 h2 => put_wf h1 h2) hr

theorem pull_wf {f g : IFace α} (h : f.WF) {src : Option (IFace α)} {a b : Range}
    (hr : f.pull src a b = .ok g) : g.WF ∧ g.rng = f.rng := by
  unfold pull at hr
  split at hr
  · cases hr
  · refine iter_ok_inv (fun p : Indexer × Indexer × IFace α => p.2.2.WF ∧ p.2.2.rng = f.rng)
      (fun g => g.WF ∧ g.rng = f.rng) ?_ ?_ ⟨h, rfl⟩ hr
    · rintro ⟨i, j, s⟩ ⟨i', j', s'⟩ hs hf
      unfold pullStep at hf
      split at hf
      · obtain ⟨v, _, hf⟩ := Res.bind_eq_ok.1 hf
        obtain ⟨d, h2, hf⟩ := Res.bind_eq_ok.1 hf
        obtain ⟨_, _, hf⟩ := Res.bind_eq_ok.1 hf
        obtain ⟨_, _, hf⟩ := Res.bind_eq_ok.1 hf
        cases hf
        have := put_wf hs.1 h2
        exact ⟨this.1, this.2.trans hs.2⟩
      · cases hf
    · rintro ⟨i, j, s⟩ r hs hf
      unfold pullStep at hf
      split at hf
      · obtain ⟨v, _, hf⟩ := Res.bind_eq_ok.1 hf
        obtain ⟨d, h2, hf⟩ := Res.bind_eq_ok.1 hf
        obtain ⟨_, _, hf⟩ := Res.bind_eq_ok.1 hf
        obtain ⟨_, _, hf⟩ := Res.bind_eq_ok.1 hf
        cases hf
      · cases hf; exact hs

theorem copyTo_wf {f g : IFace α} (h : f.WF) {src : Option (IFace α)} {a b : Range}
    (hr : copyTo src a f b = .ok g) : g.WF ∧ g.rng = f.rng := by
  unfold copyTo at hr
  split at hr
  · cases hr
  · refine iter_ok_inv (fun p : Indexer × Indexer × IFace α => p.2.2.WF ∧ p.2.2.rng = f.rng)
      (fun g => g.WF ∧ g.rng = f.rng) ?_ ?_ ⟨h, rfl⟩ hr
    · rintro ⟨i, j, s⟩ ⟨i', j', s'⟩ hs hf
      unfold copyStep at hf
      obtain ⟨v, _, hf⟩ := Res.bind_eq_ok.1 hf
      obtain ⟨d, h2, hf⟩ := Res.bind_eq_ok.1 hf
      obtain ⟨j2, _, hf⟩ := Res.bind_eq_ok.1 hf
      obtain ⟨_, _, hf⟩ := Res.bind_eq_ok.1 hf
      split at hf
      · cases hf
        have := put_wf hs.1 h2
        exact ⟨this.1, this.2.trans hs.2⟩
      · cases hf
    · rintro ⟨i, j, s⟩ r hs hf
      unfold copyStep at hf
      obtain ⟨v, _, hf⟩ := Res.bind_eq_ok.1 hf
      obtain ⟨d, h2, hf⟩ := Res.bind_eq_ok.1 hf
      obtain ⟨j2, _, hf⟩ := Res.bind_eq_ok.1 hf
      obtain ⟨_, _, hf⟩ := Res.bind_eq_ok.1 hf
      split at hf
      · cases hf
      · cases hf
        have := put_wf hs.1 h2
        exact ⟨this.1, this.2.trans hs.2⟩

theorem fullCopy_wf {f g h : IFace α} (hf : f.WF) (hr : fullCopy h f = .ok g) :
    g.WF ∧ g.rng = f.rng := by
  unfold fullCopy at hr
  split at hr
  · cases hr
  · split at hr
    · rename_i h1 h2
      cases hr
      refine ⟨⟨hf.1, ?_⟩, rfl⟩
      have := hf.2
      simp
      omega
    · cases hr

theorem swap_wf {a b c d : IFace α} (ha : a.WF) (hb : b.WF) (h : a.swap b = .ok (c, d)) :
    c.WF ∧ d.WF := by
  unfold swap at h
  split at h
  · cases h
  · rename_i hv
    cases h
    have hv : a.rng.volume = b.rng.volume := by simpa using hv
    exact ⟨⟨ha.1, by rw [hv]; exact hb.2⟩, ⟨hb.1, by rw [← hv]; exact ha.2⟩⟩

theorem made_wf {zero : α} {f : IFace α} (h : Made zero f) : f.WF := by
  induction h with
  | make _ h => exact (resize_spec h).1
  | copyCtor _ h _ => exact (resize_spec h).1
  | resize _ _ h _ => exact (resize_spec h).1
  | fill _ ih => exact fill_wf ih _
  | fillSub _ h ih => exact (fillSub_wf ih h).1
  | pull _ h ih => exact (pull_wf ih h).1
  | copyTo _ h ih => exact (copyTo_wf ih h).1
  | fullCopy _ _ h ih _ => exact (fullCopy_wf ih h).1
  | put _ h ih => exact (put_wf ih h).1
  | swapL _ _ h iha ihb => exact (swap_wf iha ihb h).1
  | swapR _ _ h iha ihb => exact (swap_wf iha ihb h).2

/-! ### Sequences of writes -/

/-- Apply `w` (new value from old) at each listed cell, in order. -/
def mapCells (f : IFace α) (w : α → α) : List Cell → IFace α
  | [] => f
  | c :: L => mapCells (match f.val c with | some v => f.write c (w v) | none => f) w L

theorem mapCells_spec (w : α → α) : ∀ (L : List Cell) (f : IFace α), f.WF → f.rng.dims ≠ [] →
    (∀ c ∈ L, InBox f.rng.dims c) → L.Nodup →
    (mapCells f w L).WF ∧ (mapCells f w L).rng = f.rng ∧
    ∀ c', InBox f.rng.dims c' →
      (mapCells f w L).val c' = if c' ∈ L then (f.val c').map w else f.val c' := by
  intro L
  induction L with
  | nil => intro f h _ _ _; exact ⟨h, rfl, fun c' _ => by simp [mapCells]⟩
  | cons c L ih =>
    intro f h hn hL hnd
    obtain ⟨v, hv⟩ := val_isSome h hn (hL c List.mem_cons_self)
    have hnd' := List.nodup_cons.1 hnd
    obtain ⟨h1, h2, h3⟩ := ih (f.write c (w v)) (write_wf h _ _) hn
      (fun c' hc' => hL c' (List.mem_cons_of_mem _ hc')) hnd'.2
    simp only [mapCells, hv]
    refine ⟨h1, h2, ?_⟩
    intro c' hc'
    rw [h3 c' hc', val_write h hn (hL c List.mem_cons_self) hc']
    by_cases hcl : c' ∈ L
    · have : c' ≠ c := by rintro rfl; exact hnd'.1 hcl
      simp [hcl, this]
    · by_cases e : c' = c
      · subst e; simp [hcl, hv]
      · simp [hcl, e]

theorem foldlM_map_eq (w : α → α) (sub : Box) (body : Indexer → IFace α → Res (IFace α))
    (hbody : ∀ (f : IFace α) c v, f.WF → f.rng.dims ≠ [] → InBox f.rng.dims c → f.val c = some v →
      body (Indexer.onCell sub f.rng.dims c) f = .ok (f.write c (w v))) (D : Box) :
    ∀ (L : List Cell) (f : IFace α), f.WF → f.rng.dims = D → D ≠ [] → (∀ c ∈ L, InBox D c) →
    L.foldlM (fun f c => body (Indexer.onCell sub D c) f) f = .ok (mapCells f w L) := by
  intro L
  induction L with
  | nil => intro f _ _ _ _; rfl
  | cons c L ih =>
    intro f h hD hn hL
    subst hD
    obtain ⟨v, hv⟩ := val_isSome h hn (hL c List.mem_cons_self)
    rw [List.foldlM_cons, hbody f c v h hn (hL c List.mem_cons_self) hv, Res.ok_bind]
    simp only [mapCells, hv]
    exact ih _ (write_wf h _ _) rfl hn (fun c' hc' => hL c' (List.mem_cons_of_mem _ hc'))

/-- Copy the values of `s` at the first cells of the pairs to the second cells. -/
def copyCells (s d : IFace α) : List (Cell × Cell) → IFace α
  | [] => d
  | p :: L => copyCells s (match s.val p.1 with | some v => d.write p.2 v | none => d) L

theorem copyCells_spec (s : IFace α) (hs : s.WF) (hsn : s.rng.dims ≠ []) :
    ∀ (L : List (Cell × Cell)) (d : IFace α), d.WF → d.rng.dims ≠ [] →
    (∀ p ∈ L, InBox s.rng.dims p.1 ∧ InBox d.rng.dims p.2) → (L.map Prod.snd).Nodup →
    (copyCells s d L).WF ∧ (copyCells s d L).rng = d.rng ∧
    (∀ p ∈ L, (copyCells s d L).val p.2 = s.val p.1) ∧
    (∀ c', InBox d.rng.dims c' → c' ∉ L.map Prod.snd → (copyCells s d L).val c' = d.val c') := by
  intro L
  induction L with
  | nil => intro d h _ _ _; exact ⟨h, rfl, by simp, fun c' _ _ => rfl⟩
  | cons p L ih =>
    intro d h hn hL hnd
    have hp := hL p List.mem_cons_self
    obtain ⟨v, hv⟩ := val_isSome hs hsn hp.1
    rw [List.map_cons] at hnd
    have hnd' := List.nodup_cons.1 hnd
    obtain ⟨h1, h2, h3, h4⟩ := ih (d.write p.2 v) (write_wf h _ _) hn
      (fun c' hc' => hL c' (List.mem_cons_of_mem _ hc')) hnd'.2
    simp only [copyCells, hv]
    refine ⟨h1, h2, ?_, ?_⟩
    · intro q hq
      rcases List.mem_cons.1 hq with rfl | hq
      · rw [h4 _ hp.2 hnd'.1, val_write h hn hp.2 hp.2, if_pos rfl, hv]
      · exact h3 q hq
    · intro c' hc' hnm
      rw [List.map_cons, List.mem_cons, not_or] at hnm
      rw [h4 c' hc' hnm.2, val_write h hn hp.2 hc', if_neg hnm.1]

/-- One element move of a copy loop, on cells. -/
def moveCell (src : Option (IFace α)) (fromB toB supS supD : Box) (d : IFace α) (p : Cell × Cell) :
    Res (IFace α) := do
  let v ← srcGet src d (Indexer.onCell fromB supS p.1)
  d.put (Indexer.onCell toB supD p.2) v

theorem foldlM_moveCell (src : Option (IFace α)) (fromB toB : Box) (dst0 : IFace α)
    (hs : (src.getD dst0).WF) (hsn : (src.getD dst0).rng.dims ≠ []) :
    ∀ (L : List (Cell × Cell)) (d : IFace α), d.WF → d.rng = dst0.rng → d.rng.dims ≠ [] →
    (src = none → ∀ p ∈ L, d.val p.1 = dst0.val p.1) →
    (∀ p ∈ L, InBox (src.getD dst0).rng.dims p.1 ∧ InBox dst0.rng.dims p.2) →
    (src = none → ∀ p ∈ L, ∀ q ∈ L, p.1 ≠ q.2) →
    L.foldlM (moveCell src fromB toB (src.getD dst0).rng.dims dst0.rng.dims) d
      = .ok (copyCells (src.getD dst0) d L) := by
  intro L
  induction L with
  | nil => intro d _ _ _ _ _ _; rfl
  | cons p L ih =>
    intro d h hr hn hval hL hdis
    have hp := hL p List.mem_cons_self
    obtain ⟨v, hv⟩ := val_isSome hs hsn hp.1
    have hget : srcGet src d (Indexer.onCell fromB (src.getD dst0).rng.dims p.1) = .ok v := by
      cases src with
      | some s => exact get_onCell hs hsn hp.1 fromB hv
      | none =>
        simp only [srcGet, Option.getD_none] at *
        rw [← hr]
        exact get_onCell h hn (by rw [hr]; exact hp.1) fromB (by rw [hval trivial p List.mem_cons_self]; exact hv)
    have hput : d.put (Indexer.onCell toB dst0.rng.dims p.2) v = .ok (d.write p.2 v) := by
      rw [← hr]; exact put_onCell h hn (by rw [hr]; exact hp.2) toB v
    rw [List.foldlM_cons]
    have : moveCell src fromB toB (src.getD dst0).rng.dims dst0.rng.dims d p = .ok (d.write p.2 v) := by
      unfold moveCell
      rw [hget, Res.ok_bind, hput]
    rw [this, Res.ok_bind]
    simp only [copyCells, hv]
    apply ih _ (write_wf h _ _) hr hn
    · rintro rfl q hq
      have hq' := hL q (List.mem_cons_of_mem _ hq)
      rw [val_write h hn (by rw [hr]; exact hp.2) (by rw [hr]; simpa using hq'.1), if_neg, hval rfl q (List.mem_cons_of_mem _ hq)]
      exact hdis rfl q (List.mem_cons_of_mem _ hq) p List.mem_cons_self
    · intro q hq; exact hL q (List.mem_cons_of_mem _ hq)
    · intro hsrc q hq q' hq'
      exact hdis hsrc q (List.mem_cons_of_mem _ hq) q' (List.mem_cons_of_mem _ hq')

theorem copy_lockstep {src : Option (IFace α)} {fromB toB supS supD : Box}
    (hlf : fromB.length = supS.length) (hlt : toB.length = supD.length) (hpf : Pos fromB) (hpt : Pos toB) :
    ∀ (LB LA preA preB : List Cell) (a b : Cell) (d : IFace α), cells fromB = preA ++ a :: LA →
    cells toB = preB ++ b :: LB → LA.length = LB.length →
    iter (copyStep src) (Indexer.onCell fromB supS a, Indexer.onCell toB supD b, d) =
      ((a, b) :: LA.zip LB).foldlM (moveCell src fromB toB supS supD) d := by
  intro LB
  induction LB with
  | nil =>
    intro LA preA preB a b d hA hB hl
    obtain rfl : LA = [] := by simpa using hl
    rw [iter_unfold]
    unfold copyStep
    simp only [List.zip_nil_right, List.foldlM_cons, List.foldlM_nil, moveCell,
      Indexer.next_last hlf hpf hA, Indexer.next_last hlt hpt hB]
    simp only [Res.ok_bind, bind_assoc, Res.pure_eq]
    congr 1
  | cons b' LB ih =>
    intro LA preA preB a b d hA hB hl
    cases LA with
    | nil => simp at hl
    | cons a' LA =>
      rw [iter_unfold]
      rw [List.zip_cons_cons, List.foldlM_cons]
      unfold copyStep
      simp only [moveCell, Indexer.next_chain hlf hpf hA, Indexer.next_chain hlt hpt hB]
      simp only [Res.ok_bind, bind_assoc, Res.pure_eq]
      congr 1
      funext v
      congr 1
      funext d'
      have := ih LA (preA ++ [a]) (preB ++ [b]) a' b' d' (by simpa using hA) (by simpa using hB) (by simpa using hl)
      exact this

theorem pull_lockstep {src : Option (IFace α)} {fromB toB supS supD : Box}
    (hlf : fromB.length = supS.length) (hlt : toB.length = supD.length) (hpf : Pos fromB) (hpt : Pos toB) :
    ∀ (LB LA preA preB : List Cell) (a b : Cell) (d : IFace α), cells fromB = preA ++ a :: LA →
    cells toB = preB ++ b :: LB → LA.length = LB.length →
    iter (pullStep src) (Indexer.onCell fromB supS a, Indexer.onCell toB supD b, d) =
      ((a, b) :: LA.zip LB).foldlM (moveCell src fromB toB supS supD) d := by
  intro LB
  induction LB with
  | nil =>
    intro LA preA preB a b d hA hB hl
    obtain rfl : LA = [] := by simpa using hl
    rw [iter_unfold]
    unfold pullStep
    rw [if_pos (by rfl)]
    simp only [List.zip_nil_right, List.foldlM_cons, List.foldlM_nil, moveCell,
      Indexer.next_last hlf hpf hA, Indexer.next_last hlt hpt hB]
    simp only [Res.ok_bind, bind_assoc, Res.pure_eq]
    congr 1
    funext v
    congr 1
    funext d'
    rw [iter_unfold]
    rfl
  | cons b' LB ih =>
    intro LA preA preB a b d hA hB hl
    cases LA with
    | nil => simp at hl
    | cons a' LA =>
      rw [iter_unfold]
      rw [List.zip_cons_cons, List.foldlM_cons]
      unfold pullStep
      rw [if_pos (by rfl)]
      simp only [moveCell, Indexer.next_chain hlf hpf hA, Indexer.next_chain hlt hpt hB]
      simp only [Res.ok_bind, bind_assoc, Res.pure_eq]
      congr 1
      funext v
      congr 1
      funext d'
      exact ih LA (preA ++ [a]) (preB ++ [b]) a' b' d' (by simpa using hA) (by simpa using hB) (by simpa using hl)

/-- Conditions under which a copy moves the k-th cell of `fromR` to the k-th cell of `toR`. -/
structure CopyOK (src : Option (IFace α)) (dst : IFace α) (fromR toR : Range) : Prop where
  swf : (src.getD dst).WF
  dwf : dst.WF
  sne : (src.getD dst).rng.dims ≠ []
  dne : dst.rng.dims ≠ []
  finc : Range.Within (src.getD dst).rng.dims fromR.dims
  tinc : Range.Within dst.rng.dims toR.dims
  fpos : Pos fromR.dims
  tpos : Pos toR.dims
  fr : fromR.WF
  tr : toR.WF
  vol : fromR.volume = toR.volume
  dis : src = none → ∀ c, ¬ (InBox fromR.dims c ∧ InBox toR.dims c)

namespace CopyOK
variable {src : Option (IFace α)} {dst : IFace α} {fromR toR : Range}

theorem zip_mem (h : CopyOK src dst fromR toR) : ∀ p ∈ (cells fromR.dims).zip (cells toR.dims),
    InBox (src.getD dst).rng.dims p.1 ∧ InBox dst.rng.dims p.2 := by
  intro p hp
  have := List.of_mem_zip (a := p.1) (b := p.2) hp
  exact ⟨h.finc.mem (mem_cells.1 this.1), h.tinc.mem (mem_cells.1 this.2)⟩

theorem lens (h : CopyOK src dst fromR toR) : (cells fromR.dims).length = (cells toR.dims).length := by
  have fne : fromR.dims ≠ [] := by
    intro he; have := h.finc.length_eq; rw [he] at this; exact h.sne (List.length_eq_zero_iff.1 this)
  have tne : toR.dims ≠ [] := by
    intro he; have := h.tinc.length_eq; rw [he] at this; exact h.dne (List.length_eq_zero_iff.1 this)
  have h1 := cells_length h.fpos
  have h2 := cells_length h.tpos
  have h3 := h.fr.volume_eq fne
  have h4 := h.tr.volume_eq tne
  have h5 := h.vol
  omega

theorem fold_eq (h : CopyOK src dst fromR toR) :
    ((cells fromR.dims).zip (cells toR.dims)).foldlM
      (moveCell src fromR.dims toR.dims (src.getD dst).rng.dims dst.rng.dims) dst =
      .ok (copyCells (src.getD dst) dst ((cells fromR.dims).zip (cells toR.dims))) := by
  apply foldlM_moveCell src _ _ dst h.swf h.sne _ _ h.dwf rfl h.dne (fun _ _ _ => rfl) h.zip_mem
  intro hsrc p hp q hq heq
  have h1 := List.of_mem_zip (a := p.1) (b := p.2) hp
  have h2 := List.of_mem_zip (a := q.1) (b := q.2) hq
  exact h.dis hsrc p.1 ⟨mem_cells.1 h1.1, by rw [heq]; exact mem_cells.1 h2.2⟩

theorem copyTo_eq (h : CopyOK src dst fromR toR) : copyTo src fromR dst toR =
    .ok (copyCells (src.getD dst) dst ((cells fromR.dims).zip (cells toR.dims))) := by
  rw [← h.fold_eq]
  unfold copyTo
  rw [if_neg (by simp [h.vol])]
  unfold indexer
  rw [Indexer.make_eq_at h.sne h.finc, Indexer.make_eq_at h.dne h.tinc]
  obtain ⟨_, ⟨ra, hra⟩, _⟩ := cells_chain fromR.dims h.fpos
  obtain ⟨_, ⟨rb, hrb⟩, _⟩ := cells_chain toR.dims h.tpos
  rw [copy_lockstep h.finc.length_eq.symm h.tinc.length_eq.symm h.fpos h.tpos rb ra [] [] _ _ _ hra hrb
    (by have := h.lens; rw [hra, hrb] at this; simpa using this), hra, hrb]
  rfl

theorem pull_eq (h : CopyOK src dst fromR toR) : dst.pull src fromR toR =
    .ok (copyCells (src.getD dst) dst ((cells fromR.dims).zip (cells toR.dims))) := by
  rw [← h.fold_eq]
  unfold pull
  rw [if_neg (by simp [h.vol])]
  unfold indexer
  rw [Indexer.make_eq_at h.sne h.finc, Indexer.make_eq_at h.dne h.tinc]
  obtain ⟨_, ⟨ra, hra⟩, _⟩ := cells_chain fromR.dims h.fpos
  obtain ⟨_, ⟨rb, hrb⟩, _⟩ := cells_chain toR.dims h.tpos
  rw [pull_lockstep h.finc.length_eq.symm h.tinc.length_eq.symm h.fpos h.tpos rb ra [] [] _ _ _ hra hrb
    (by have := h.lens; rw [hra, hrb] at this; simpa using this), hra, hrb]
  rfl

/-- What a copy does, cell by cell. -/
theorem spec (h : CopyOK src dst fromR toR) :
    let g := copyCells (src.getD dst) dst ((cells fromR.dims).zip (cells toR.dims))
    g.WF ∧ g.rng = dst.rng ∧
    (∀ (k : Nat) a b, (cells fromR.dims)[k]? = some a → (cells toR.dims)[k]? = some b →
      g.val b = (src.getD dst).val a) ∧
    (∀ c, InBox dst.rng.dims c → ¬ InBox toR.dims c → g.val c = dst.val c) := by
  have hsnd : ((cells fromR.dims).zip (cells toR.dims)).map Prod.snd = cells toR.dims := by
    rw [List.map_snd_zip]; exact Nat.le_of_eq h.lens.symm
  obtain ⟨h1, h2, h3, h4⟩ := copyCells_spec (src.getD dst) h.swf h.sne
    ((cells fromR.dims).zip (cells toR.dims)) dst h.dwf h.dne h.zip_mem (by rw [hsnd]; exact cells_nodup _)
  refine ⟨h1, h2, ?_, ?_⟩
  · intro k a b ha hb
    refine h3 (a, b) ?_
    apply List.mem_of_getElem? (i := k)
    rw [List.getElem?_zip_eq_some]
    exact ⟨ha, hb⟩
  · intro c hc hnc
    exact h4 c hc (by rw [hsnd, mem_cells]; exact hnc)

end CopyOK
end IFace
end QK
