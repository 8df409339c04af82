import Verif.Proofs.Container
/- Loops over all cells of a range that overwrite the element of each cell. -/
namespace QK
open Spec
namespace IFace
variable {α : Type}

/-- Overwrite each listed cell `c` with `w c (old value)`, in order. -/
def setCells (f : IFace α) (w : Cell → α → α) : List Cell → IFace α
  | [] => f
  | c :: L => setCells (match f.val c with | some v => f.write c (w c v) | none => f) w L

theorem setCells_spec (w : Cell → α → α) : ∀ (L : List Cell) (f : IFace α), f.WF → f.rng.dims ≠ [] →
    (∀ c ∈ L, InBox f.rng.dims c) → L.Nodup →
    (setCells f w L).WF ∧ (setCells f w L).rng = f.rng ∧
    ∀ c', InBox f.rng.dims c' →
      (setCells f w L).val c' = if c' ∈ L then (f.val c').map (w c') else f.val c' := by
  intro L
  induction L with
  | nil => intro f h _ _ _; exact ⟨h, rfl, fun c' _ => by simp [setCells]⟩
  | cons c L ih =>
    intro f h hn hL hnd
    obtain ⟨v, hv⟩ := val_isSome h hn (hL c List.mem_cons_self)
    have hnd' := List.nodup_cons.1 hnd
    obtain ⟨h1, h2, h3⟩ := ih (f.write c (w c v)) (write_wf h _ _) hn
      (fun c' hc' => hL c' (List.mem_cons_of_mem _ hc')) hnd'.2
    simp only [setCells, hv]
    refine ⟨h1, h2, ?_⟩
    intro c' hc'
    rw [h3 c' hc', val_write h hn (hL c List.mem_cons_self) hc']
    by_cases hcl : c' ∈ L
    · have : c' ≠ c := by rintro rfl; exact hnd'.1 hcl
      simp [hcl, this]
    · by_cases e : c' = c
      · subst e; simp [hcl, hv]
      · simp [hcl, e]

/-- A loop over the cells of `sub` whose body overwrites the element of its cell. -/
theorem forEach_update {f : IFace α} (hwf : f.WF) (hne : f.rng.dims ≠ []) {sub : Range}
    (hw : Range.Within f.rng.dims sub.dims) (hpos : Pos sub.dims) (w : Cell → α → α)
    {body : Indexer → IFace α → Res (IFace α)}
    (hbody : ∀ (g : IFace α) c v, g.WF → g.rng = f.rng → InBox sub.dims c → g.val c = some v →
      body (Indexer.onCell sub.dims f.rng.dims c) g = .ok (g.write c (w c v))) :
    ∃ g, (f.indexer sub).forEach body f = .ok g ∧ g.WF ∧ g.rng = f.rng ∧
      ∀ x, InBox f.rng.dims x → g.val x = if InBox sub.dims x then (f.val x).map (w x) else f.val x := by
  unfold IFace.indexer
  rw [Indexer.forEach_make hne hw hpos]
  have key : ∀ (L : List Cell) (g : IFace α), g.WF → g.rng = f.rng → (∀ c ∈ L, InBox sub.dims c) →
      L.foldlM (fun f' c => body (Indexer.onCell sub.dims f.rng.dims c) f') g = .ok (setCells g w L) := by
    intro L
    induction L with
    | nil => intro g _ _ _; rfl
    | cons c L ih =>
      intro g h hD hL
      have hc := hL c List.mem_cons_self
      obtain ⟨v, hv⟩ := val_isSome h (by rw [hD]; exact hne) (c := c) (by rw [hD]; exact hw.mem hc)
      rw [List.foldlM_cons, hbody g c v h hD hc hv, Res.ok_bind]
      simp only [setCells, hv]
      exact ih _ (write_wf h _ _) hD (fun c' hc' => hL c' (List.mem_cons_of_mem _ hc'))
  rw [key _ f hwf rfl (fun c hc => mem_cells.1 hc)]
  obtain ⟨h1, h2, h3⟩ := setCells_spec w (cells sub.dims) f hwf hne (fun c hc => hw.mem (mem_cells.1 hc)) (cells_nodup _)
  refine ⟨_, rfl, h1, h2, ?_⟩
  intro x hx
  rw [h3 x hx]
  simp only [mem_cells]

end IFace
end QK
