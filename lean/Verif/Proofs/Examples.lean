import Verif.Proofs.Solvers
import Verif.Model.ArithReal
/- Concrete managers, for the examples beside the theorems. -/
namespace QK
open Spec

/-- A chunk of any layout can be given any contents. -/
theorem Chunk.Layout.exists_contents {α : Type} {g : Int} {M D : Box} {c : Chunk α} (h : c.Layout g M D) (hn : M ++ D ≠ [])
    (hp : Pos (grow g M ++ D)) (u : Cell → α) :
    ∃ c' : Chunk α, c.SameShape c' ∧ ∀ x, InBox (grow g M ++ D) x → c'.arr.val x = some (u x) := by
  have hlen : ((cells (grow g M ++ D)).length : Int) = c.arr.data.length := by
    rw [cells_length hp, h.arr_size, h.arr_range, Range.volume_setup (by simpa [grow] using hn)]
  refine ⟨{ c with arr := { c.arr with data := (cells (grow g M ++ D)).map u } }, ⟨rfl, by simp; omega⟩, ?_⟩
  intro x hx
  obtain ⟨i, hi, rfl⟩ := List.getElem_of_mem (mem_cells.2 hx)
  have e := congrArg (fun l : List Int => l[i]?) (cells_map_offset hp)
  have hlt : i < (boxVolume (grow g M ++ D)).toNat := by
    have := cells_length hp; omega
  unfold IFace.val
  simp only [h.arr_range, Range.setup_dims]
  have e' : offset (grow g M ++ D) (cells (grow g M ++ D))[i] = i := by
    simp only [List.getElem?_map, List.getElem?_eq_getElem hi, Option.map_some, interval] at e
    simp [hlt] at e
    exact e
  rw [e']
  simp [hi]

namespace Mgr
variable {α : Type} [Arith α]

theorem arrayBox_pos {m : Mgr α} (hM : Pos m.grid.rng.dims) {id : VarId} (h1 : 1 ≤ id.basis.points) (h2 : id.comps ≠ []) :
    Pos (m.arrayBox id) := by
  unfold arrayBox
  rw [pos_append]
  refine ⟨?_, ?_⟩
  · intro d hd
    obtain ⟨e, he, rfl⟩ := List.mem_map.1 hd
    have := hM e he
    simp only; omega
  · intro d hd
    have : 0 < id.comps.length := List.length_pos_of_ne_nil h2
    simp at hd
    rcases hd with rfl | rfl
    · simp only; omega
    · simp only; omega

/-- A manager with any given variables and contents. -/
theorem exists_manager {S : VarId → Prop} (hS : Consistent S) (hb : ∀ id, S id → 1 ≤ id.basis.points ∧ id.comps ≠ [])
    (g : Rectilinear α) (hn : g.rng.dims ≠ []) (hM : Pos g.rng.dims) (dt time : α) (u : VarId → Cell → α) :
    ∀ {ids : List VarId}, (∀ id ∈ ids, S id) → ids.Nodup →
    ∃ m : Mgr α, m.Good S ∧ m.Laid ∧ m.grid = g ∧ m.dt = some dt ∧ m.time = some time ∧
      (∀ id ∈ ids, m.Stores id (u id)) ∧ ∀ id, id ∉ ids → m.contents id = none := by
  intro ids
  induction ids with
  | nil =>
    intro _ _
    exact ⟨{ grid := g, vars := [], heap := [], dt := some dt, time := some time },
      ⟨hS, fun id h => by have := (hb id h).1; omega, hn, hM, by simp, by simp, by simp, by simp⟩,
      (by intro id c h; cases h), rfl, rfl, rfl, by simp, fun _ _ => rfl⟩
  | cons i ids ih =>
    intro hk hnd
    rw [List.nodup_cons] at hnd
    obtain ⟨m, hG, hL, hg, hdt, htm, hs, hc⟩ := ih (fun id h => hk id (List.mem_cons_of_mem _ h)) hnd.2
    have hi := hk i (List.mem_cons_self ..)
    obtain ⟨a, m1, _, g1, l1, x1, b1, c1⟩ := Solve.outputVar_requested hG hL hi
    obtain ⟨c, e⟩ := m.requested_mem (Arith.lit 0) (id := i) (ids := [i]) (by simp)
    rw [← c1] at e
    have hp : Pos (m1.arrayBox i) := arrayBox_pos g1.mesh_pos (hb i hi).1 (hb i hi).2
    obtain ⟨c', s1, s2⟩ := (l1 i c e).exists_contents (by simp) hp (u i)
    have hother : ∀ id, id ≠ i → (m1.store a c').contents id = m.contents id := by
      intro id hne
      rw [g1.store_contents b1, Function.update_of_ne hne, c1]
      unfold requested
      cases m.contents id <;> simp [hne]
    refine ⟨m1.store a c', g1.store _ _, Laid.store g1 l1 b1 e s1, x1.grid.trans hg, x1.dt.trans hdt, x1.time.trans htm, ?_, ?_⟩
    · intro id hid
      rcases List.mem_cons.1 hid with rfl | hid'
      · exact ⟨c', by rw [g1.store_contents b1, Function.update_self], s2⟩
      · have hne : id ≠ i := by rintro rfl; exact hnd.1 hid'
        obtain ⟨d, d1, d2⟩ := hs id hid'
        refine ⟨d, by rw [hother id hne]; exact d1, ?_⟩
        intro x hx
        refine d2 x ?_
        unfold arrayBox at hx ⊢
        rw [← x1.grid]; exact hx
    · intro id hid
      rw [hother id (by rintro rfl; simp at hid)]
      exact hc id (fun h => hid (List.mem_cons_of_mem _ h))

end Mgr
end QK
