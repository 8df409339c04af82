import Verif.Model.Indexer
import Verif.Proofs.Range
import Mathlib.Data.List.Chain
/- The indexer is an odometer: `next` is the successor in row-major order. -/
namespace QK
open Spec

/-- Successor of a cell in row-major order of a box; the flag reports a carry out of the first
dimension (then the cell wraps around to the first one). -/
def succCell : Box → Cell → Cell × Bool
  | d :: ds, x :: xs =>
    let r := succCell ds xs
    if r.2 then (if x = d.2 - 1 then (d.1 :: r.1, true) else ((x + 1) :: r.1, false))
    else (x :: r.1, false)
  | _, _ => ([], true)

theorem succCell_snoc (ds : Box) (d : Int × Int) (x : Int) : ∀ (c : Cell), c.length = ds.length →
    succCell (ds ++ [d]) (c ++ [x]) =
      if x = d.2 - 1 then ((succCell ds c).1 ++ [d.1], (succCell ds c).2)
      else (c ++ [x + 1], false) := by
  induction ds with
  | nil =>
    intro c h
    obtain rfl : c = [] := by simpa using h
    by_cases hx : x = d.2 - 1 <;> simp [succCell, hx]
  | cons e es ih =>
    intro c h
    cases c with
    | nil => simp at h
    | cons y ys =>
      have hl : ys.length = es.length := by simpa using h
      simp only [List.cons_append, succCell, ih ys hl]
      by_cases hx : x = d.2 - 1
      · simp only [hx, if_true]
        by_cases h2 : (succCell es ys).2 = true
        · simp only [h2, if_true]
          by_cases h3 : y = e.2 - 1 <;> simp [h3]
        · simp [h2]
      · simp [hx]

theorem succCell_length (ds : Box) : ∀ (c : Cell), c.length = ds.length →
    (succCell ds c).1.length = ds.length := by
  induction ds with
  | nil => intro c h; simp [succCell]
  | cons e es ih =>
    intro c h
    cases c with
    | nil => simp at h
    | cons y ys =>
      have hl : ys.length = es.length := by simpa using h
      simp only [succCell]
      split_ifs <;> simp [ih ys hl]

theorem linearSum_eq (ds : Box) : ∀ (acc : Int) (c : Cell), c.length = ds.length →
    Indexer.linearSum acc c ds (Range.strideLoop ds) = acc + offset ds c := by
  induction ds with
  | nil =>
    intro acc c h
    obtain rfl : c = [] := by simpa using h
    simp [Indexer.linearSum, offset, offsetFrom]
  | cons e es ih =>
    intro acc c h
    cases c with
    | nil => simp at h
    | cons y ys =>
      have hl : ys.length = es.length := by simpa using h
      rw [Range.strideLoop_cons, Indexer.linearSum, ih _ _ hl, offset_cons hl]
      ring

/-- The offset as a sum of per-dimension contributions, weighted by arbitrary strides. -/
def dot : List Int → List Int → Int
  | x :: xs, s :: ss => x * s + dot xs ss
  | _, _ => 0

theorem dot_append {a b s t : List Int} (h : a.length = s.length) :
    dot (a ++ b) (s ++ t) = dot a s + dot b t := by
  induction a generalizing s with
  | nil => cases s <;> simp [dot] at *
  | cons x xs ih =>
    cases s with
    | nil => simp at h
    | cons y ys => simp [dot, ih (s := ys) (by simpa using h)]; ring

theorem offset_eq_dot (ds : Box) : ∀ (c : Cell), c.length = ds.length →
    offset ds c = dot c (Range.strideLoop ds) - dot (ds.map Prod.fst) (Range.strideLoop ds) := by
  induction ds with
  | nil =>
    intro c h
    obtain rfl : c = [] := by simpa using h
    simp [offset, offsetFrom, dot]
  | cons e es ih =>
    intro c h
    cases c with
    | nil => simp at h
    | cons y ys =>
      have hl : ys.length = es.length := by simpa using h
      rw [Range.strideLoop_cons, offset_cons hl, ih ys hl]
      simp [dot]; ring

/-- The indexer positioned at cell `c`. -/
def Indexer.onCell (sub sup : Box) (c : Cell) : Indexer :=
  { sup := Range.setup sup, sub := Range.setup sub, linear := offset sup c, ex := true, index := c }

/-- The indexer after its last cell: wrapped around to the first cell, `exists` is false. -/
def Indexer.done (sub sup : Box) : Indexer :=
  { Indexer.onCell sub sup (sub.map Prod.fst) with ex := false }

theorem recInc_spec {sub : Box} {stride : List Int} {supD : Box} {n : Nat}
    (hsub : sub.length = n) (hstr : stride.length = n) :
    ∀ (d : Nat), d ≤ n → ∀ (p q : Cell) (lin : Int) (e : Bool), p.length = d → (p ++ q).length = n →
    Indexer.recInc d (Indexer.mk ⟨supD, stride⟩ (Range.setup sub) lin e (p ++ q)) =
    .ok { sup := ⟨supD, stride⟩, sub := Range.setup sub,
          linear := lin + dot (succCell (sub.take d) p).1 (stride.take d) - dot p (stride.take d),
          ex := if (succCell (sub.take d) p).2 then false else e,
          index := (succCell (sub.take d) p).1 ++ q } := by
  intro d
  induction d with
  | zero =>
    intro _ p q lin e hp _
    obtain rfl : p = [] := by simpa using hp
    simp [Indexer.recInc, succCell, dot]
  | succ d ih =>
    intro hd p q lin e hp hpq
    obtain ⟨p', x, rfl⟩ : ∃ p' x, p = p' ++ [x] :=
      ⟨p.dropLast, p.getLast (by intro h; simp [h] at hp), (List.dropLast_append_getLast _).symm⟩
    have hp' : p'.length = d := by simpa using hp
    have hds : d < sub.length := by omega
    have hdt : d < stride.length := by omega
    have htake : sub.take (d+1) = sub.take d ++ [sub[d]] := by
      rw [List.take_add_one, List.getElem?_eq_getElem hds]; rfl
    have htakeS : stride.take (d+1) = stride.take d ++ [stride[d]] := by
      rw [List.take_add_one, List.getElem?_eq_getElem hdt]; rfl
    have hidx : vget (p' ++ [x] ++ q) (d : Int) = .ok x := by
      apply vget_ok; simp [hp'] 
    have hset : ∀ v, vset (p' ++ [x] ++ q) (d : Int) v = .ok (p' ++ [v] ++ q) := by
      intro v
      rw [vset_nat (by simp [hp'])]
      simp [hp']
    have hup : (Range.setup sub).upper (d : Int) = .ok (sub[d]).2 := Range.upper_ok (r := Range.setup sub) hds
    have hlo : (Range.setup sub).lower (d : Int) = .ok (sub[d]).1 := Range.lower_ok (r := Range.setup sub) hds
    have hle : (Range.setup sub).length (d : Int) = .ok ((sub[d]).2 - (sub[d]).1) :=
      Range.length_ok (r := Range.setup sub) hds
    have hst : vget stride (d : Int) = .ok stride[d] := vget_nat hdt
    have hsn := succCell_snoc (sub.take d) sub[d] x p' (by simp [hp', Nat.min_eq_left (Nat.le_of_lt hds)])
    have hlen : (succCell (sub.take d) p').1.length = (stride.take d).length := by
      rw [succCell_length _ _ (by simp [hp', Nat.min_eq_left (Nat.le_of_lt hds)])]
      simp; omega
    rw [Indexer.recInc]
    simp only [hidx, hup, Res.ok_bind]
    rw [htake, htakeS, hsn]
    by_cases hx : x = (sub[d]).2 - 1
    · rw [if_pos hx]
      simp only [hlo, hset, hle, hst, Res.ok_bind, if_pos hx]
      have := ih (by omega) p' ([(sub[d]).1] ++ q) (lin - (((sub[d]).2 - (sub[d]).1) - 1) * stride[d]) e hp'
        (by simpa using hpq)
      rw [← List.append_assoc] at this
      rw [this]
      rw [dot_append hlen, dot_append (by simp; omega)]
      simp only [dot, List.append_assoc]
      congr 2
      rw [hx]; ring
    · rw [if_neg hx]
      simp only [Indexer.increment, hst, hidx, hset, Res.ok_bind, if_neg hx]
      rw [dot_append (by simp; omega), dot_append (by simp; omega)]
      simp only [dot, Res.pure_eq]
      congr 2
      · ring

theorem Indexer.next_at {sub sup : Box} (hl : sub.length = sup.length) {c : Cell}
    (hc : c.length = sup.length) :
    (Indexer.onCell sub sup c).next =
      .ok { Indexer.onCell sub sup (succCell sub c).1 with ex := !(succCell sub c).2 } := by
  have h := recInc_spec (sub := sub) (stride := Range.strideLoop sup) (supD := sup) (n := sup.length)
    hl (by simp) sup.length (le_refl _) c [] (offset sup c) true hc (by simpa using hc)
  simp only [List.append_nil] at h
  unfold Indexer.next Indexer.onCell
  have hnd : (Range.setup sup).numDims = sup.length := rfl
  rw [hnd]
  have e1 : (Range.setup sup) = ⟨sup, Range.strideLoop sup⟩ := rfl
  rw [e1, h]
  rw [List.take_of_length_le (by omega), List.take_of_length_le (by simp)]
  have hs : (succCell sub c).1.length = sup.length := by
    rw [succCell_length _ _ (by omega)]; exact hl
  rw [offset_eq_dot _ _ hs, offset_eq_dot _ _ hc]
  congr 2
  · ring
  · cases (succCell sub c).2 <;> rfl

/-- Consecutive cells of the row-major enumeration are successors, and the last one carries. -/
theorem cells_chain (b : Box) (hp : Pos b) :
    (cells b).IsChain (fun x y => succCell b x = (y, false)) ∧
    (∃ rest, cells b = b.map Prod.fst :: rest) ∧
    (∃ init last, cells b = init ++ [last] ∧ succCell b last = (b.map Prod.fst, true)) := by
  induction b with
  | nil => exact ⟨by simp [cells], ⟨[], rfl⟩, ⟨[], [], rfl, rfl⟩⟩
  | cons d ds ih =>
    obtain ⟨hch, ⟨rest, hrest⟩, ⟨init, last, hlast, hcarry⟩⟩ := ih hp.tail
    have hd := hp.head
    have key : ∀ (n : Nat) (l : Int), l + n + 1 = d.2 →
        ((interval l d.2).flatMap (fun x => (cells ds).map (x :: ·))).IsChain
          (fun x y => succCell (d :: ds) x = (y, false)) ∧
        (∃ rest, ((interval l d.2).flatMap (fun x => (cells ds).map (x :: ·)))
            = (l :: ds.map Prod.fst) :: rest) ∧
        (∃ init last, ((interval l d.2).flatMap (fun x => (cells ds).map (x :: ·))) = init ++ [last]
          ∧ succCell (d :: ds) last = (d.1 :: ds.map Prod.fst, true)) := by
      intro n
      induction n with
      | zero =>
        intro l hl
        have : interval l d.2 = [l] := by
          rw [interval_succ (by omega), interval_empty (by omega)]
        rw [this]
        simp only [List.flatMap_cons, List.flatMap_nil, List.append_nil]
        refine ⟨?_, ?_, ?_⟩
        · rw [List.isChain_map]
          exact hch.imp (by intro a b h; simp [succCell, h])
        · exact ⟨rest.map (l :: ·), by rw [hrest]; rfl⟩
        · refine ⟨init.map (l :: ·), l :: last, by rw [hlast]; simp, ?_⟩
          simp only [succCell, hcarry, if_true]
          rw [if_pos (by omega)]
      | succ n ihn =>
        intro l hl
        obtain ⟨h1, ⟨r1, h2⟩, ⟨i3, l3, h3, h3'⟩⟩ := ihn (l + 1) (by push_cast at hl; omega)
        rw [interval_succ (by omega), List.flatMap_cons]
        refine ⟨?_, ?_, ?_⟩
        · rw [List.isChain_append]
          refine ⟨?_, h1, ?_⟩
          · rw [List.isChain_map]
            exact hch.imp (by intro a b h; simp [succCell, h])
          · intro x hx y hy
            rw [hlast] at hx
            simp at hx
            rw [h2] at hy
            simp at hy
            subst hx hy
            simp only [succCell, hcarry, if_true]
            rw [if_neg (by push_cast at hl; omega)]
        · exact ⟨rest.map (l :: ·) ++ _, by rw [hrest]; rfl⟩
        · refine ⟨(cells ds).map (l :: ·) ++ i3, l3, by rw [h3]; simp, h3'⟩
    have := key (d.2 - d.1 - 1).toNat d.1 (by omega)
    simpa [cells] using this

theorem Indexer.make_eq_at {sub sup : Range} (hn : sup.dims ≠ []) (hw : Range.Within sup.dims sub.dims) :
    Indexer.make sub sup = Indexer.onCell sub.dims sup.dims (sub.dims.map Prod.fst) := by
  have hi : sup.copy.includes sub.copy = true := Range.includes_iff.2 hw
  have h0 : 0 < sup.copy.numDims := by
    unfold Range.numDims; simp; exact List.length_pos_of_ne_nil hn
  unfold Indexer.make
  simp only [h0, if_true, hi, Indexer.onCell]
  congr 1
  have := linearSum_eq sup.dims 0 (sub.dims.map Prod.fst) (by simp [hw.length_eq])
  simpa [Range.copy, Range.setup] using this

theorem Indexer.make_not_includes {sub sup : Range} (h : sup.dims = [] ∨ ¬ Range.Within sup.dims sub.dims) :
    (Indexer.make sub sup).ex = false := by
  unfold Indexer.make
  by_cases h0 : 0 < sup.copy.numDims
  · have hn : sup.dims ≠ [] := List.length_pos_iff.1 h0
    have hw : ¬ Range.Within sup.dims sub.dims := by tauto
    have hi : sup.copy.includes sub.copy = false := by
      rw [Bool.eq_false_iff]; intro h; exact hw (Range.includes_iff.1 h)
    simp only [h0, if_true, hi]; rfl
  · simp only [h0, if_false]

/-- Sequence of indexer states of a traversal: `L` are the remaining cells. -/
theorem Indexer.next_chain {sub sup : Box} (hl : sub.length = sup.length) (hp : Pos sub)
    {pre : List Cell} {c c' : Cell} {L : List Cell} (h : cells sub = pre ++ c :: c' :: L) :
    (Indexer.onCell sub sup c).next = .ok (Indexer.onCell sub sup c') := by
  obtain ⟨hch, _, _⟩ := cells_chain sub hp
  have hlen : c.length = sup.length := by
    have : c ∈ cells sub := by rw [h]; simp
    rw [(mem_cells.1 this).length_eq, hl]
  rw [h, List.isChain_append] at hch
  have h2 := hch.2.1
  rw [List.isChain_cons_cons] at h2
  rw [Indexer.next_at hl hlen, h2.1]
  rfl

theorem Indexer.next_last {sub sup : Box} (hl : sub.length = sup.length) (hp : Pos sub)
    {pre : List Cell} {c : Cell} (h : cells sub = pre ++ [c]) :
    (Indexer.onCell sub sup c).next = .ok (Indexer.done sub sup) := by
  obtain ⟨_, _, ⟨init, last, h1, h2⟩⟩ := cells_chain sub hp
  have hcl : c = last := by
    rw [h] at h1
    have := congrArg List.getLast? h1
    simpa using this
  have hlen : c.length = sup.length := by
    have : c ∈ cells sub := by rw [h]; simp
    rw [(mem_cells.1 this).length_eq, hl]
  subst hcl
  rw [Indexer.next_at hl hlen, h2]
  rfl

theorem Indexer.forEach_unfold {σ : Type _} (i : Indexer) (body : Indexer → σ → Res σ) (s : σ) :
    i.forEach body s = if i.ex then (body i s >>= fun s' => i.next >>= fun i' => i'.forEach body s')
      else .ok s := by
  unfold Indexer.forEach
  rw [iter_unfold]
  by_cases h : i.ex = true
  · simp only [h, if_true]
    cases body i s with
    | ok s' =>
      simp only [Res.ok_bind]
      cases i.next <;> simp
    | _ => simp
  · simp [h]

theorem Indexer.forEach_suffix {σ : Type _} {sub sup : Box} (hl : sub.length = sup.length) (hp : Pos sub)
    (body : Indexer → σ → Res σ) : ∀ (L pre : List Cell) (c : Cell) (s : σ),
    cells sub = pre ++ c :: L →
    (Indexer.onCell sub sup c).forEach body s =
      (c :: L).foldlM (fun s c => body (Indexer.onCell sub sup c) s) s := by
  intro L
  induction L with
  | nil =>
    intro pre c s h
    rw [Indexer.forEach_unfold, if_pos (by rfl)]
    simp only [List.foldlM_cons, List.foldlM_nil]
    congr 1
    funext s'
    rw [Indexer.next_last hl hp h, Res.ok_bind, Indexer.forEach_unfold]
    rfl
  | cons c' L ih =>
    intro pre c s h
    rw [Indexer.forEach_unfold, if_pos (by rfl), List.foldlM_cons]
    congr 1
    funext s'
    rw [Indexer.next_chain hl hp h, Res.ok_bind]
    exact ih (pre ++ [c]) c' s' (by simpa using h)

/-- The loop over an indexer is a fold over the row-major enumeration of the sub-range. -/
theorem Indexer.forEach_make {σ : Type _} {sub sup : Range} (hn : sup.dims ≠ [])
    (hw : Range.Within sup.dims sub.dims) (hp : Pos sub.dims) (body : Indexer → σ → Res σ) (s : σ) :
    (Indexer.make sub sup).forEach body s =
      (cells sub.dims).foldlM (fun s c => body (Indexer.onCell sub.dims sup.dims c) s) s := by
  obtain ⟨_, ⟨rest, hrest⟩, _⟩ := cells_chain sub.dims hp
  rw [Indexer.make_eq_at hn hw, hrest]
  exact Indexer.forEach_suffix hw.length_eq.symm hp body rest [] _ s hrest

theorem Indexer.forEach_empty {σ : Type _} {i : Indexer} (h : i.ex = false)
    (body : Indexer → σ → Res σ) (s : σ) : i.forEach body s = .ok s := by
  rw [Indexer.forEach_unfold, h]; rfl

end QK
