import Verif.Spec.Fields
import Verif.Proofs.Par
import Verif.Proofs.BC
import Verif.Props.Indexer
/- The finite-volume kernels. -/
namespace QK
open Spec

/-! ### Offsets -/

theorem offset_snoc {B : Box} {x : Cell} (h : x.length = B.length) (n j : Int) :
    offset (B ++ [(0, n)]) (x ++ [j]) = n * offset B x + j := by
  induction B generalizing x with
  | nil =>
    cases x with
    | nil => simp [offset, offsetFrom]
    | cons y ys => simp at h
  | cons d B ih =>
    cases x with
    | nil => simp at h
    | cons y ys =>
      have hl : ys.length = B.length := by simpa using h
      rw [List.cons_append, List.cons_append, offset_cons (by simp [hl]), offset_cons hl, ih hl, boxVolume_append]
      have e : boxVolume [((0 : Int), n)] = n := by simp [boxVolume, lengths]
      rw [e]; ring

theorem offset_moveBy {B : Box} {x : Cell} (h : x.length = B.length) {i : Nat} (hi : i < B.length) (s : Int) :
    offset B (moveBy x i s) = offset B x + s * boxVolume (B.drop (i + 1)) := by
  induction B generalizing x i with
  | nil => simp at hi
  | cons d B ih =>
    cases x with
    | nil => simp at h
    | cons y ys =>
      have hl : ys.length = B.length := by simpa using h
      cases i with
      | zero =>
        have : moveBy (y :: ys) 0 s = (y + s) :: ys := by simp [moveBy]
        rw [this, offset_cons hl, offset_cons hl]; simp; ring
      | succ i =>
        have : moveBy (y :: ys) (i + 1) s = y :: moveBy ys i s := by simp [moveBy]
        rw [this, offset_cons (by simp [hl]), offset_cons hl, ih hl (by simpa using hi)]; simp; ring

theorem moveBy_append {x y : Cell} {i : Nat} (h : i < x.length) (s : Int) : moveBy (x ++ y) i s = moveBy x i s ++ y := by
  unfold moveBy
  induction x generalizing i with
  | nil => simp at h
  | cons a x ih =>
    cases i with
    | zero => simp
    | succ i => simpa using ih (by simpa using h)

theorem moveBy_getD {x : Cell} {i j : Nat} (h : i < x.length) (s : Int) :
    (moveBy x i s).getD j 0 = if j = i then x.getD j 0 + s else x.getD j 0 := by
  unfold moveBy
  by_cases e : j = i
  · subst e; simp [h]
  · rw [if_neg e]; simp [Ne.symm e]

/-- A cell of the mesh, moved by at most the number of ghost layers, is in the grown mesh. -/
theorem inBox_moveBy_grow {M D : Box} {g : Int} {x : Cell} (h : InBox (M ++ D) x) {i : Nat} (hi' : i < M.length) {s : Int}
    (h1 : -g ≤ s) (h2 : s ≤ g) : InBox (grow g M ++ D) (moveBy x i s) := by
  have hg : 0 ≤ g := by omega
  have h0 := inBox_interior hg h
  rw [inBox_iff] at h h0 ⊢
  refine ⟨by rw [moveBy_length]; exact h0.1, ?_⟩
  intro j hj
  have hx : i < x.length := by rw [h.1]; simp; omega
  rw [moveBy_getD hx]
  by_cases e : j = i
  · subst e
    rw [if_pos rfl]
    have := h.2 j (by simp; omega)
    have l1 : lo (grow g M ++ D) j = lo (M ++ D) j - g := by
      simp [lo, List.getElem?_append_left, hi', grow]
    have l2 : hi (grow g M ++ D) j = hi (M ++ D) j + g := by
      simp [hi, List.getElem?_append_left, hi', grow]
    rw [l1, l2]; omega
  · rw [if_neg e]; exact h0.2 j hj

theorem Chunk.SameShape.refl {α : Type} (c : Chunk α) : c.SameShape c := ⟨rfl, rfl⟩
theorem Chunk.SameShape.trans {α : Type} {a b c : Chunk α} (h : a.SameShape b) (h' : b.SameShape c) : a.SameShape c := by
  refine ⟨?_, h'.2.trans h.2⟩
  rw [h'.1, h.1]
theorem Chunk.SameShape.rng {α : Type} {a b : Chunk α} (h : a.SameShape b) : b.arr.rng = a.arr.rng := by rw [h.1]
theorem Chunk.Layout.sameShape {α : Type} {g : Int} {M D : Box} {c c' : Chunk α} (h : c.Layout g M D) (hs : c.SameShape c') :
    c'.Layout g M D := by
  have e := hs.1
  rw [e]
  refine h.with_arr (A := { c.arr with data := c'.arr.data }) ⟨h.wf.1, ?_⟩ rfl
  show (c'.arr.data.length : Int) = c.arr.rng.volume
  rw [hs.2]; exact h.arr_size

namespace Prog
variable {α β γ : Type}

theorem run_mapM_pure {δ : Type} {f : δ → Prog α β} {g : δ → β} {m : Mem α} : ∀ {l : List δ},
    (∀ x ∈ l, (f x).run m = .ok (g x, m)) → (l.mapM f).run m = .ok (l.map g, m) := by
  intro l
  induction l with
  | nil => intro _; rw [List.mapM_nil]; rfl
  | cons x l ih =>
    intro h
    rw [List.mapM_cons, run_bind_ok (h x (List.mem_cons_self ..)),
      run_bind_ok (ih fun y hy => h y (List.mem_cons_of_mem _ hy))]
    rfl

theorem forM_append {δ : Type} (f : δ → Prog α Unit) (a b : List δ) :
    (a ++ b).forM f = (a.forM f >>= fun _ => b.forM f) := by
  induction a with
  | nil => rfl
  | cons x a ih =>
    show (f x >>= fun _ => (a ++ b).forM f) = ((f x >>= fun _ => a.forM f) >>= fun _ => b.forM f)
    rw [ih, LawfulMonad.bind_assoc]

/-- A loop that changes `n` consecutive elements of array `a`, each by its own function. -/
theorem run_forM_modify {a : Nat} {i : Int} {n : Nat} {body : Nat → Prog α Unit} {u : Nat → α → α}
    (hb : ∀ j < n, ∀ (m : Mem α) v, m (a, i + (j : Int)) = some v →
      (body j).run m = .ok ((), Function.update m (a, i + (j : Int)) (some (u j v))))
    {m : Mem α} (hm : ∀ j < n, (m (a, i + (j : Int))).isSome) :
    ((List.range n).forM body).run m = .ok ((), fun l =>
      if l.1 = a ∧ i ≤ l.2 ∧ l.2 < i + n then (m l).map (u (l.2 - i).toNat) else m l) := by
  induction n with
  | zero =>
    show Res.ok ((), m) = _
    congr 2; funext l
    rw [if_neg]; rintro ⟨_, h1, h2⟩; simp at h2; omega
  | succ n ih =>
    rw [List.range_succ, forM_append, run_bind_ok (ih (fun j hj => hb j (by omega)) (fun j hj => hm j (by omega)))]
    have e : ∀ (x : Nat), [x].forM body = body x := by
      intro x
      show (body x >>= fun _ => pure ()) = body x
      exact bind_pure (body x)
    rw [e]
    obtain ⟨v, hv⟩ := Option.isSome_iff_exists.1 (hm n (by omega))
    rw [hb n (by omega) _ v (by
      simp only []
      rw [if_neg (by rintro ⟨_, _, h⟩; simp at h), hv])]
    congr 2; funext l
    by_cases e : l = (a, i + (n : Int))
    · subst e
      rw [Function.update_self, if_pos ⟨rfl, by omega, by push_cast; omega⟩, hv]
      simp
    · rw [Function.update_of_ne e]
      by_cases c : l.1 = a ∧ i ≤ l.2 ∧ l.2 < i + n
      · rw [if_pos c, if_pos ⟨c.1, c.2.1, by push_cast; omega⟩]
      · rw [if_neg c, if_neg]
        rintro ⟨c1, c2, c3⟩
        push_cast at c3
        apply e
        have : l.2 = i + n := by
          by_contra h; exact c ⟨c1, c2, by omega⟩
        exact Prod.ext c1 this

end Prog

namespace FV
open Prog
variable {α : Type} [Arith α]

theorem mem_steps {imin imax : Int} {n : Nat} (hn : 0 < n) {x : Int} :
    x ∈ steps imin imax n ↔ ∃ k : Nat, x = imin + n * k ∧ x < imax := by
  unfold steps
  rw [List.mem_map]
  have hn' : (0 : Int) < n := by exact_mod_cast hn
  constructor
  · rintro ⟨k, hk, rfl⟩
    rw [List.mem_range] at hk
    refine ⟨k, rfl, ?_⟩
    have h1 : (k : Int) < (imax - imin + n - 1) / n := by omega
    have h2 : (k : Int) + 1 ≤ (imax - imin + n - 1) / n := by omega
    have h3 := (Int.le_ediv_iff_mul_le hn').1 h2
    nlinarith
  · rintro ⟨k, rfl, hk⟩
    refine ⟨k, ?_, rfl⟩
    rw [List.mem_range]
    have : (k : Int) + 1 ≤ (imax - imin + n - 1) / n := by
      rw [Int.le_ediv_iff_mul_le hn']; nlinarith
    omega

theorem steps_nodup {imin imax : Int} {n : Nat} (hn : 0 < n) : (steps imin imax n).Nodup := by
  unfold steps
  refine List.Nodup.map ?_ List.nodup_range
  intro a b h
  simp only at h
  have hn' : (n : Int) ≠ 0 := by exact_mod_cast hn.ne'
  have : (n : Int) * a = n * b := by omega
  exact_mod_cast mul_left_cancel₀ hn' this

/-- Flux through the wall below linear index `i`, from the elements `Q` of the array. -/
def wallFlux (φ : List α → List α → List α) (n : Nat) (Q : Int → α) (s i : Int) : List α :=
  φ ((List.range n).map fun j : Nat => (recon (Q (i - 2 * s + j)) (Q (i - s + j)) (Q (i + j)) (Q (i + s + j))).1)
    ((List.range n).map fun j : Nat => (recon (Q (i - 2 * s + j)) (Q (i - s + j)) (Q (i + j)) (Q (i + s + j))).2)

theorem wall_run {n : Nat} {flux : Flux α} {φ : List α → List α → List α} (hφ : IsFlux n flux φ) {Q : Int → α} {s i : Int} {m : Mem α}
    {a b c d : Int} (ea : a = i - 2 * s) (eb : b = i - s) (ec : c = i) (ed : d = i + s)
    (hq : ∀ t : Int, -2 ≤ t → t ≤ 1 → ∀ j < n, m (0, i + t * s + (j : Int)) = some (Q (i + t * s + (j : Int)))) :
    (wall n flux a b c d).run m = .ok (wallFlux φ n Q s i, m) ∧ (wallFlux φ n Q s i).length = n := by
  subst ea eb ec ed
  obtain ⟨h1, h2⟩ := hφ ((List.range n).map fun j : Nat => (recon (Q (c - 2 * s + j)) (Q (c - s + j)) (Q (c + j)) (Q (c + s + j))).1)
    ((List.range n).map fun j : Nat => (recon (Q (c - 2 * s + j)) (Q (c - s + j)) (Q (c + j)) (Q (c + s + j))).2) (by simp) (by simp)
  refine ⟨?_, h2⟩
  unfold wall
  rw [run_bind_ok (run_mapM_pure (g := fun j : Nat => recon (Q (c - 2 * s + j)) (Q (c - s + j)) (Q (c + j)) (Q (c + s + j)))
    (fun j hj => ?_))]
  · rw [List.map_map, List.map_map]
    exact run_ofRes h1 m
  · rw [List.mem_range] at hj
    have e1 := hq (-2) (by decide) (by decide) j hj
    have e2 := hq (-1) (by decide) (by decide) j hj
    have e3 := hq 0 (by decide) (by decide) j hj
    have e4 := hq 1 (by decide) (by decide) j hj
    rw [show c + -2 * s = c - 2 * s by ring] at e1
    rw [show c + -1 * s = c - s by ring] at e2
    rw [show c + 0 * s = c by ring] at e3
    rw [show c + 1 * s = c + s by ring] at e4
    rw [run_bind_ok (run_read e1), run_bind_ok (run_read e2), run_bind_ok (run_read e3), run_bind_ok (run_read e4)]
    rfl

/-- What one iteration of the parallel kernel does. -/
theorem iterMp_run {n : Nat} {flux : Flux α} {φ : List α → List α → List α} (hφ : IsFlux n flux φ) {Q : Int → α} {s i : Int} {m : Mem α} (d : α)
    (hq : ∀ t : Int, -2 ≤ t → t ≤ 2 → ∀ j < n, m (0, i + t * s + (j : Int)) = some (Q (i + t * s + (j : Int))))
    (hr : ∀ j < n, (m (1, i + (j : Int))).isSome) :
    (iterMp n flux d s i).run m = .ok ((), fun l => if l.1 = 1 ∧ i ≤ l.2 ∧ l.2 < i + n then
      (m l).map (fun r => r + (wallFlux φ n Q s i).getD (l.2 - i).toNat (Arith.lit 0) / d -
        (wallFlux φ n Q s (i + s)).getD (l.2 - i).toNat (Arith.lit 0) / d) else m l) := by
  unfold iterMp
  obtain ⟨w1, w2⟩ := wall_run hφ (Q := Q) (s := s) (i := i) (m := m) (a := i - s - s) (b := i - s) (c := i) (d := i + s)
    (by ring) rfl rfl rfl (fun t h1 h2 j hj => hq t h1 (by omega) j hj)
  rw [run_bind_ok w1]
  have hstep : ∀ (F : List α) (op : α → α → α), F.length = n → ∀ j < n, ∀ (m : Mem α) v, m (1, i + (j : Int)) = some v →
      (do let r ← read (1, i + (j : Int)); let f ← ofRes (vget F j); write (1, i + (j : Int)) (op r (f / d)) : Prog α Unit).run m =
      .ok ((), Function.update m (1, i + (j : Int)) (some (op v (F.getD j (Arith.lit 0) / d)))) := by
    intro F op hF j hj m v hv
    rw [run_bind_ok (run_read hv)]
    have : vget F (j : Int) = .ok (F.getD j (Arith.lit 0)) := by
      rw [vget_nat (by omega)]; simp [List.getElem?_eq_getElem (show j < F.length by omega)]
    rw [run_bind_ok (run_ofRes this m)]
    exact run_write _ (by rw [hv]; rfl)
  rw [run_bind_ok (run_forM_modify (u := fun j v => v + (wallFlux φ n Q s i).getD j (Arith.lit 0) / d)
    (hstep _ (· + ·) w2) hr)]
  have hq' : ∀ t : Int, -2 ≤ t → t ≤ 1 → ∀ j < n, (fun l : Loc => if l.1 = 1 ∧ i ≤ l.2 ∧ l.2 < i + n then
      (m l).map (fun v => v + (wallFlux φ n Q s i).getD (l.2 - i).toNat (Arith.lit 0) / d) else m l)
      (0, i + s + t * s + (j : Int)) = some (Q (i + s + t * s + (j : Int))) := by
    intro t h1 h2 j hj
    simp only []
    rw [if_neg (by simp)]
    have := hq (t + 1) (by omega) (by omega) j hj
    rwa [show i + (t + 1) * s = i + s + t * s by ring] at this
  obtain ⟨x1, x2⟩ := wall_run hφ (Q := Q) (s := s) (i := i + s) (a := i - s) (b := i) (c := i + s) (d := i + s + s)
    (m := fun l : Loc => if l.1 = 1 ∧ i ≤ l.2 ∧ l.2 < i + n then
      (m l).map (fun v => v + (wallFlux φ n Q s i).getD (l.2 - i).toNat (Arith.lit 0) / d) else m l)
    (by ring) (by ring) rfl rfl hq'
  rw [run_bind_ok x1]
  rw [run_forM_modify (u := fun j v => v - (wallFlux φ n Q s (i + s)).getD j (Arith.lit 0) / d)
    (hstep _ (· - ·) x2)]
  · congr 2; funext l
    by_cases c : l.1 = 1 ∧ i ≤ l.2 ∧ l.2 < i + n
    · rw [if_pos c, if_pos c, if_pos c, Option.map_map]; rfl
    · rw [if_neg c, if_neg c, if_neg c]
  · intro j hj
    simp only []
    rw [if_pos ⟨by simp, by simp, by simpa using hj⟩, Option.isSome_map]
    exact hr j hj

/-- Footprint of an iteration of the parallel kernel: it may read all of array 0, and write its own elements
of array 1. -/
theorem iterMp_within {n : Nat} {flux : Flux α} {d : α} {s i : Int} :
    (iterMp n flux d s i).Within (fun l => l.1 = 0) (fun l => l.1 = 1 ∧ i ≤ l.2 ∧ l.2 < i + n) := by
  have hwall : ∀ a b c e : Int, (wall n flux a b c e).Within (fun l => l.1 = 0) (fun l => l.1 = 1 ∧ i ≤ l.2 ∧ l.2 < i + n) := by
    intro a b c e
    unfold wall
    refine Within.bind (within_mapM fun j _ => ?_) fun lr => within_ofRes _ _ _
    have hz : ∀ y : Int, (fun l : Loc => l.1 = 0) (0, y) ∨ (fun l : Loc => l.1 = 1 ∧ i ≤ l.2 ∧ l.2 < i + n) (0, y) := fun _ => .inl rfl
    exact (within_read (hz _)).bind fun _ => (within_read (hz _)).bind fun _ =>
      (within_read (hz _)).bind fun _ => (within_read (hz _)).bind fun _ => trivial
  have hloc : ∀ j ∈ List.range n, (1 = 1 ∧ i ≤ i + (j : Int) ∧ i + (j : Int) < i + n) := by
    intro j hj; rw [List.mem_range] at hj; omega
  unfold iterMp
  refine (hwall _ _ _ _).bind fun F => ?_
  refine Within.bind (within_forM fun j hj => ?_) fun _ => ?_
  · exact (within_read (.inr (hloc j hj))).bind fun _ => (within_ofRes _ _ _).bind fun _ => within_write (hloc j hj)
  · refine (hwall _ _ _ _).bind fun F => ?_
    exact within_forM fun j hj => (within_read (.inr (hloc j hj))).bind fun _ =>
      (within_ofRes _ _ _).bind fun _ => within_write (hloc j hj)


/-- Footprint of the parallel iteration at `i`. -/
def footMp (n : Nat) (i : Int) : Foot := (fun l => l.1 = 0, fun l => l.1 = 1 ∧ i ≤ l.2 ∧ l.2 < i + n)

theorem steps_sep {imin imax : Int} {n : Nat} (hn : 0 < n) :
    (steps imin imax n).Pairwise (fun i j => Sep (footMp n i) (footMp n j)) := by
  refine (steps_nodup hn).pairwise_of_forall_ne ?_
  intro a ha b hb hab
  obtain ⟨k, rfl, _⟩ := (mem_steps hn).1 ha
  obtain ⟨k', rfl, _⟩ := (mem_steps hn).1 hb
  have key : ∀ y : Int, (imin + n * k ≤ y ∧ y < imin + n * k + n) → (imin + n * k' ≤ y ∧ y < imin + n * k' + n) → False := by
    intro y h1 h2
    have hn' : (0 : Int) < n := by exact_mod_cast hn
    have e1 : (k : Int) < k' + 1 := by
      by_contra h
      have : (n : Int) * (k' + 1) ≤ n * k := by nlinarith
      linarith
    have e2 : (k' : Int) < k + 1 := by
      by_contra h
      have : (n : Int) * (k + 1) ≤ n * k' := by nlinarith
      linarith
    have : (k : Int) = k' := by omega
    exact hab (by rw [this])
  refine ⟨?_, ?_⟩
  · rintro ⟨a, y⟩ ⟨h0, h1⟩
    simp only [footMp] at h0 ⊢
    subst h0
    exact ⟨by simp, fun h => key y h1 h.2⟩
  · rintro ⟨a, y⟩ ⟨h0, h1⟩
    simp only [footMp] at h0 ⊢
    subst h0
    exact ⟨by simp, fun h => key y h.2 h1⟩

omit [Arith α] in
theorem mem_of_zero {a b : List α} {y : Int} (h0 : 0 ≤ y) : Mem.of [a, b] (0, y) = a[y.toNat]? := by
  simp [Mem.of, not_lt.2 h0]
omit [Arith α] in
theorem mem_of_one {a b : List α} {y : Int} (h0 : 0 ≤ y) : Mem.of [a, b] (1, y) = b[y.toNat]? := by
  simp [Mem.of, not_lt.2 h0]

/-- Elements of a list by integer index. -/
def elem (l : List α) (y : Int) : α := l.getD y.toNat (Arith.lit 0)

theorem getElem?_elem {l : List α} {y : Int} (h0 : 0 ≤ y) (h1 : y < l.length) : l[y.toNat]? = some (elem l y) := by
  have : y.toNat < l.length := by omega
  simp [elem, List.getElem?_eq_getElem this]

/-- The parallel kernel on a line of cells: cells `k0 … k1` of `T`, stride `S` cells. -/
theorem mp_line {n : Nat} (hn : 2 ≤ n) {flux : Flux α} {φ : List α → List α → List α} (hφ : IsFlux n flux φ) (d : α)
    {T k0 k1 S : Int} {qd rd : List α} (hq : (qd.length : Int) = n * T) (hr : (rd.length : Int) = n * T)
    (hS : 0 ≤ S) (h0 : 0 ≤ k0 - 2 * S) (h1 : k1 + 2 * S < T) :
    ∃ m', runAll ((steps (n * k0) (n * k1 + 2) n).map (iterMp n flux d (n * S))) (Mem.of [qd, rd]) = .ok m' ∧
      (∀ k, k0 ≤ k → k ≤ k1 → ∀ j < n, m' (1, n * k + (j : Int)) = (Mem.of [qd, rd] (1, n * k + (j : Int))).map (fun r =>
        r + (wallFlux φ n (elem qd) (n * S) (n * k)).getD j (Arith.lit 0) / d -
          (wallFlux φ n (elem qd) (n * S) (n * (k + S))).getD j (Arith.lit 0) / d)) ∧
      (∀ k, ¬ (k0 ≤ k ∧ k ≤ k1) → ∀ j < n, m' (1, n * k + (j : Int)) = Mem.of [qd, rd] (1, n * k + (j : Int))) ∧
      ∀ l : Loc, l.1 ≠ 1 → m' l = Mem.of [qd, rd] l := by
  have hn0 : 0 < n := by omega
  have hn' : (0 : Int) < n := by exact_mod_cast hn0
  have hn2 : (2 : Int) ≤ n := by exact_mod_cast hn
  have hmem : ∀ i, i ∈ steps (n * k0) (n * k1 + 2) n ↔ ∃ k, k0 ≤ k ∧ k ≤ k1 ∧ i = n * k := by
    intro i
    rw [mem_steps hn0]
    constructor
    · rintro ⟨t, rfl, h⟩
      refine ⟨k0 + t, by omega, ?_, by ring⟩
      by_contra hlt
      have : k1 + 1 ≤ k0 + t := by omega
      nlinarith
    · rintro ⟨k, ha, hb, rfl⟩
      refine ⟨(k - k0).toNat, ?_, by nlinarith⟩
      have : (((k - k0).toNat : Nat) : Int) = k - k0 := by omega
      rw [this]; ring
  obtain ⟨m', e1, e2, e3⟩ := runAll_family (m := Mem.of [qd, rd]) (l := steps (n * k0) (n * k1 + 2) n)
    (P := iterMp n flux d (n * S)) (R := fun i => (footMp n i).1) (W := fun i => (footMp n i).2)
    (res := fun i l => if l.1 = 1 ∧ i ≤ l.2 ∧ l.2 < i + n then
      (Mem.of [qd, rd] l).map (fun r => r + (wallFlux φ n (elem qd) (n * S) i).getD (l.2 - i).toNat (Arith.lit 0) / d -
        (wallFlux φ n (elem qd) (n * S) (i + n * S)).getD (l.2 - i).toNat (Arith.lit 0) / d) else Mem.of [qd, rd] l)
    (fun i _ => iterMp_within) (steps_sep hn0) (by
      intro i hi
      obtain ⟨k, ha, hb, rfl⟩ := (hmem i).1 hi
      refine iterMp_run hφ d ?_ ?_
      · intro t ht1 ht2 j hj
        have hj' : (j : Int) < n := by exact_mod_cast hj
        have hk : 0 ≤ k + t * S ∧ k + t * S < T := by constructor <;> nlinarith
        have e : (n : Int) * k + t * (n * S) + j = n * (k + t * S) + j := by ring
        have g0 : (0 : Int) ≤ n * (k + t * S) + j := by nlinarith
        have g1 : (n : Int) * (k + t * S) + j < n * T := by nlinarith
        rw [e, mem_of_zero g0, getElem?_elem g0 (by omega)]
      · intro j hj
        have hj' : (j : Int) < n := by exact_mod_cast hj
        have hk : 0 ≤ k ∧ k < T := by constructor <;> nlinarith
        have g0 : (0 : Int) ≤ n * k + j := by nlinarith
        have g1 : (n : Int) * k + j < n * T := by nlinarith
        rw [mem_of_one g0, getElem?_elem g0 (by omega)]; rfl)
  refine ⟨m', e1, ?_, ?_, ?_⟩
  · intro k ha hb j hj
    have hj' : (j : Int) < n := by exact_mod_cast hj
    have hw : (1 : Nat) = 1 ∧ n * k ≤ n * k + (j : Int) ∧ n * k + (j : Int) < n * k + n := ⟨rfl, by omega, by omega⟩
    rw [e2 (n * k) ((hmem _).2 ⟨k, ha, hb, rfl⟩) (1, n * k + (j : Int)) hw]
    simp only []
    rw [if_pos ⟨trivial, hw.2⟩, show n * k + (j : Int) - n * k = j by ring, show (n : Int) * k + n * S = n * (k + S) by ring]
    rfl
  · intro k hk j hj
    refine e3 _ ?_
    intro i hi hw
    obtain ⟨k', ha, hb, rfl⟩ := (hmem i).1 hi
    simp only [footMp, true_and] at hw
    have hj' : (j : Int) < n := by exact_mod_cast hj
    have e1 : k' < k + 1 := by
      by_contra h
      have : (n : Int) * (k + 1) ≤ n * k' := by nlinarith
      linarith
    have e2 : k < k' + 1 := by
      by_contra h
      have : (n : Int) * (k' + 1) ≤ n * k := by nlinarith
      linarith
    have : k = k' := by omega
    exact hk (by omega)
  · intro l hl
    refine e3 _ ?_
    intro i _ hw
    exact hl hw.1

omit [Arith α] in
/-- `extract` of memory whose elements exist. -/
theorem extract_ok {m : Mem α} {a n : Nat} {f : Nat → α} (h : ∀ i < n, m (a, (i : Int)) = some (f i)) :
    m.extract a n = .ok ((List.range n).map f) := by
  unfold Mem.extract
  have : ∀ l : List Nat, (∀ i ∈ l, i < n) → l.mapM (fun i : Nat => (match m (a, (i : Int)) with
      | some v => Res.ok v
      | none => Res.ub "no such element")) = .ok (l.map f) := by
    intro l
    induction l with
    | nil => intro _; rfl
    | cons x l ih =>
      intro hl
      rw [List.mapM_cons, ih fun i hi => hl i (List.mem_cons_of_mem _ hi), h x (hl x (List.mem_cons_self ..))]
      rfl
  exact this _ fun i hi => List.mem_range.1 hi

/-! ### The serial kernel on a line -/

/-- What one iteration of the serial kernel does, `S ≥ 1` cells apart. -/
theorem iterFast_run {n : Nat} {flux : Flux α} {φ : List α → List α → List α} (hφ : IsFlux n flux φ) {Q : Int → α} {s i : Int} {m : Mem α} (d : α)
    (hs : (n : Int) ≤ s)
    (hq : ∀ t : Int, -1 ≤ t → t ≤ 2 → ∀ j < n, m (0, i + t * s + (j : Int)) = some (Q (i + t * s + (j : Int))))
    (hr : ∀ j < n, (m (1, i + (j : Int))).isSome ∧ (m (1, i + s + (j : Int))).isSome) :
    (iterFast n flux d s i).run m = .ok ((), fun l => if l.1 = 1 ∧ i ≤ l.2 ∧ l.2 < i + n then
        (m l).map (fun r => r - (wallFlux φ n Q s (i + s)).getD (l.2 - i).toNat (Arith.lit 0) / d)
      else if l.1 = 1 ∧ i + s ≤ l.2 ∧ l.2 < i + s + n then
        (m l).map (fun r => r + (wallFlux φ n Q s (i + s)).getD (l.2 - (i + s)).toNat (Arith.lit 0) / d) else m l) := by
  unfold iterFast
  obtain ⟨w1, w2⟩ := wall_run hφ (Q := Q) (s := s) (i := i + s) (m := m) (a := i - s) (b := i) (c := i + s) (d := i + s + s)
    (by ring) (by ring) rfl rfl (fun t h1 h2 j hj => by
      have := hq (t + 1) (by omega) (by omega) j hj
      rwa [show i + (t + 1) * s = i + s + t * s by ring] at this)
  rw [run_bind_ok w1]
  generalize wallFlux φ n Q s (i + s) = F at *
  -- the loop over the components
  have key : ∀ t ≤ n, ((List.range t).forM (fun j : Nat => (do
      let f ← ofRes (vget F j)
      let r ← read (1, i + j)
      write (1, i + j) (r - f / d)
      let r' ← read (1, i + s + j)
      write (1, i + s + j) (r' + f / d) : Prog α Unit))).run m = .ok ((), fun l => if l.1 = 1 ∧ i ≤ l.2 ∧ l.2 < i + t then
        (m l).map (fun r => r - F.getD (l.2 - i).toNat (Arith.lit 0) / d)
      else if l.1 = 1 ∧ i + s ≤ l.2 ∧ l.2 < i + s + t then
        (m l).map (fun r => r + F.getD (l.2 - (i + s)).toNat (Arith.lit 0) / d) else m l) := by
    intro t
    induction t with
    | zero =>
      intro _
      show Res.ok ((), m) = _
      congr 2; funext l
      rw [if_neg (by rintro ⟨_, h1, h2⟩; simp at h2; omega), if_neg (by rintro ⟨_, h1, h2⟩; simp at h2; omega)]
    | succ t ih =>
      intro ht
      rw [List.range_succ, forM_append, run_bind_ok (ih (by omega))]
      have e : ∀ (body : Nat → Prog α Unit) (x : Nat), [x].forM body = body x := by
        intro body x
        show (body x >>= fun _ => pure ()) = body x
        exact bind_pure (body x)
      rw [e]
      have hF : vget F (t : Int) = .ok (F.getD t (Arith.lit 0)) := by
        rw [vget_nat (by omega)]; simp [List.getElem?_eq_getElem (show t < F.length by omega)]
      rw [run_bind_ok (run_ofRes hF _)]
      obtain ⟨v, hv⟩ := Option.isSome_iff_exists.1 (hr t (by omega)).1
      obtain ⟨v', hv'⟩ := Option.isSome_iff_exists.1 (hr t (by omega)).2
      have htn : (t : Int) < n := by omega
      rw [run_bind_ok (run_read (v := v) (by
        simp only []
        rw [if_neg (by rintro ⟨_, _, h⟩; simp at h), if_neg (by rintro ⟨_, h, h'⟩; omega), hv]))]
      rw [run_bind_ok (run_write _ (by
        simp only []
        rw [if_neg (by rintro ⟨_, _, h⟩; simp at h), if_neg (by rintro ⟨_, h, h'⟩; omega), hv]; rfl))]
      have hne : ((1 : Nat), i + s + (t : Int)) ≠ (1, i + (t : Int)) := by
        intro h; simp at h; omega
      rw [run_bind_ok (run_read (v := v') (by
        rw [Function.update_of_ne hne]
        simp only []
        rw [if_neg (by rintro ⟨_, _, h⟩; omega), if_neg (by rintro ⟨_, h, h'⟩; omega), hv']))]
      rw [run_write _ (by
        rw [Function.update_of_ne hne]
        simp only []
        rw [if_neg (by rintro ⟨_, _, h⟩; omega), if_neg (by rintro ⟨_, h, h'⟩; omega), hv']; rfl)]
      congr 2; funext l
      by_cases e1 : l = (1, i + s + (t : Int))
      · subst e1
        rw [Function.update_self, if_neg (by rintro ⟨_, _, h⟩; push_cast at h; omega), if_pos ⟨rfl, by omega, by push_cast; omega⟩, hv']
        simp
      · rw [Function.update_of_ne e1]
        by_cases e2 : l = (1, i + (t : Int))
        · subst e2
          rw [Function.update_self, if_pos ⟨rfl, by omega, by push_cast; omega⟩, hv]
          simp
        · rw [Function.update_of_ne e2]
          have a1 : (l.1 = 1 ∧ i ≤ l.2 ∧ l.2 < i + ((t + 1 : Nat) : Int)) ↔ (l.1 = 1 ∧ i ≤ l.2 ∧ l.2 < i + t) := by
            push_cast
            constructor
            · rintro ⟨c1, c2, c3⟩
              refine ⟨c1, c2, ?_⟩
              by_contra h; exact e2 (Prod.ext c1 (by simp; omega))
            · rintro ⟨c1, c2, c3⟩; exact ⟨c1, c2, by omega⟩
          have a2 : (l.1 = 1 ∧ i + s ≤ l.2 ∧ l.2 < i + s + ((t + 1 : Nat) : Int)) ↔ (l.1 = 1 ∧ i + s ≤ l.2 ∧ l.2 < i + s + t) := by
            push_cast
            constructor
            · rintro ⟨c1, c2, c3⟩
              refine ⟨c1, c2, ?_⟩
              by_contra h; exact e1 (Prod.ext c1 (by simp; omega))
            · rintro ⟨c1, c2, c3⟩; exact ⟨c1, c2, by omega⟩
          simp only [a1, a2]
  exact key n (le_refl _)

/-- The serial kernel on a line of cells: cells `k0 … k0 + t - 1` of `T`, stride `S` cells. -/
theorem fast_line {n : Nat} (hn : 0 < n) {flux : Flux α} {φ : List α → List α → List α} (hφ : IsFlux n flux φ) (d : α)
    {T k0 S : Int} {qd rd : List α} (hq : (qd.length : Int) = n * T) (hr : (rd.length : Int) = n * T)
    (hS : 1 ≤ S) (h0 : 0 ≤ k0 - S) (t : Nat) (h1 : k0 + t - 1 + 2 * S < T) :
    ∃ m', runAll ((List.range t).map fun a : Nat => iterFast n flux d (n * S) (n * k0 + n * a)) (Mem.of [qd, rd]) = .ok m' ∧
      (∀ k, ∀ j < n, m' (1, n * k + (j : Int)) = (Mem.of [qd, rd] (1, n * k + (j : Int))).map (fun r =>
        let r1 := if k0 + S ≤ k ∧ k < k0 + t + S then r + (wallFlux φ n (elem qd) (n * S) (n * k)).getD j (Arith.lit 0) / d else r
        if k0 ≤ k ∧ k < k0 + t then r1 - (wallFlux φ n (elem qd) (n * S) (n * (k + S))).getD j (Arith.lit 0) / d else r1)) ∧
      ∀ l : Loc, l.1 ≠ 1 → m' l = Mem.of [qd, rd] l := by
  have hn' : (0 : Int) < n := by exact_mod_cast hn
  induction t with
  | zero =>
    refine ⟨Mem.of [qd, rd], rfl, ?_, fun _ _ => rfl⟩
    intro k j hj
    have : ∀ r : α, (let r1 := if k0 + S ≤ k ∧ k < k0 + ((0 : Nat) : Int) + S then r + (wallFlux φ n (elem qd) (n * S) (n * k)).getD j (Arith.lit 0) / d else r
        if k0 ≤ k ∧ k < k0 + ((0 : Nat) : Int) then r1 - (wallFlux φ n (elem qd) (n * S) (n * (k + S))).getD j (Arith.lit 0) / d else r1) = r := by
      intro r
      simp only []
      rw [if_neg (by rintro ⟨_, h⟩; simp at h; omega), if_neg (by rintro ⟨_, h⟩; simp at h; omega)]
    simp only [] at this ⊢
    rw [funext this, Option.map_id']
  | succ t ih =>
    obtain ⟨m', e1, e2, e3⟩ := ih (by push_cast at h1; omega)
    rw [List.range_succ, List.map_append, runAll_append, e1, Res.ok_bind]
    have hj1 : ∀ k : Int, 0 ≤ k → k < T → ∀ j < n, ∃ v, Mem.of [qd, rd] (1, n * k + (j : Int)) = some v := by
      intro k ha hb j hj
      have hj' : (j : Int) < n := by exact_mod_cast hj
      have g0 : (0 : Int) ≤ n * k + j := by nlinarith
      have g1 : (n : Int) * k + j < n * T := by nlinarith
      exact ⟨_, by rw [mem_of_one g0, getElem?_elem g0 (by omega)]⟩
    push_cast at h1
    have hrun := iterFast_run (s := n * S) (i := n * k0 + n * (t : Int)) (Q := elem qd) (m := m') hφ d (by nlinarith) (by
      intro c hc1 hc2 j hj
      have hj' : (j : Int) < n := by exact_mod_cast hj
      have hk : 0 ≤ k0 + t + c * S ∧ k0 + t + c * S < T := by constructor <;> nlinarith
      have e : (n : Int) * k0 + n * t + c * (n * S) + j = n * (k0 + t + c * S) + j := by ring
      have g0 : (0 : Int) ≤ n * (k0 + t + c * S) + j := by nlinarith
      have g1 : (n : Int) * (k0 + t + c * S) + j < n * T := by nlinarith
      rw [e, e3 _ (by simp), mem_of_zero g0, getElem?_elem g0 (by omega)]) (by
      intro j hj
      constructor
      · rw [show (n : Int) * k0 + n * t + j = n * (k0 + t) + j by ring, e2 _ j hj, Option.isSome_map]
        obtain ⟨v, hv⟩ := hj1 (k0 + t) (by omega) (by omega) j hj
        rw [hv]; rfl
      · rw [show (n : Int) * k0 + n * t + n * S + j = n * (k0 + t + S) + j by ring, e2 _ j hj, Option.isSome_map]
        obtain ⟨v, hv⟩ := hj1 (k0 + t + S) (by omega) (by omega) j hj
        rw [hv]; rfl)
    refine ⟨_, by rw [List.map_cons, List.map_nil, runAll_cons, hrun]; rfl, ?_, ?_⟩
    · intro k j hj
      have hj' : (j : Int) < n := by exact_mod_cast hj
      have inj : ∀ k' : Int, (n * k' ≤ n * k + (j : Int) ∧ n * k + (j : Int) < n * k' + n) ↔ k = k' := by
        intro k'
        constructor
        · rintro ⟨c1, c2⟩
          have e1 : k' < k + 1 := by
            by_contra h
            have : (n : Int) * (k + 1) ≤ n * k' := by nlinarith
            linarith
          have e2 : k < k' + 1 := by
            by_contra h
            have : (n : Int) * (k' + 1) ≤ n * k := by nlinarith
            linarith
          omega
        · rintro rfl; omega
      have i1 := inj (k0 + t)
      have i2 := inj (k0 + t + S)
      rw [show (n : Int) * (k0 + t) = n * k0 + n * t by ring] at i1
      rw [show (n : Int) * (k0 + t + S) = n * k0 + n * t + n * S by ring] at i2
      simp only [true_and, i1, i2]
      rw [e2 k j hj]
      by_cases c1 : k = k0 + t
      · subst c1
        rw [if_pos rfl, Option.map_map]
        congr 1
        funext r
        simp only [Function.comp]
        rw [if_neg (c := k0 ≤ k0 + (t : Int) ∧ k0 + (t : Int) < k0 + t) (by omega),
          if_pos (c := k0 ≤ k0 + (t : Int) ∧ k0 + (t : Int) < k0 + ((t + 1 : Nat) : Int)) (by push_cast; omega)]
        rw [show n * (k0 + (t : Int)) + (j : Int) - (n * k0 + n * t) = j by ring,
          show (n : Int) * k0 + n * t + n * S = n * (k0 + t + S) by ring, Int.toNat_natCast]
        have : (k0 + S ≤ k0 + (t : Int) ∧ k0 + (t : Int) < k0 + t + S) ↔ (k0 + S ≤ k0 + (t : Int) ∧ k0 + (t : Int) < k0 + ((t + 1 : Nat) : Int) + S) := by
          push_cast; omega
        simp only [this]
      · rw [if_neg c1]
        by_cases c2 : k = k0 + t + S
        · subst c2
          rw [if_pos rfl, Option.map_map]
          congr 1
          funext r
          simp only [Function.comp]
          rw [if_neg (c := k0 ≤ k0 + (t : Int) + S ∧ k0 + (t : Int) + S < k0 + t) (by omega),
            if_neg (c := k0 ≤ k0 + (t : Int) + S ∧ k0 + (t : Int) + S < k0 + ((t + 1 : Nat) : Int)) (by push_cast; omega),
            if_neg (c := k0 + S ≤ k0 + (t : Int) + S ∧ k0 + (t : Int) + S < k0 + (t : Int) + S) (by omega),
            if_pos (c := k0 + S ≤ k0 + (t : Int) + S ∧ k0 + (t : Int) + S < k0 + ((t + 1 : Nat) : Int) + S) (by push_cast; omega)]
          rw [show n * (k0 + (t : Int) + S) + (j : Int) - (n * k0 + n * t + n * S) = j by ring,
            show (n : Int) * k0 + n * t + n * S = n * (k0 + t + S) by ring, Int.toNat_natCast]
        · rw [if_neg c2]
          congr 1
          funext r
          have b1 : (k0 + S ≤ k ∧ k < k0 + (t : Int) + S) ↔ (k0 + S ≤ k ∧ k < k0 + ((t + 1 : Nat) : Int) + S) := by push_cast; omega
          have b2 : (k0 ≤ k ∧ k < k0 + (t : Int)) ↔ (k0 ≤ k ∧ k < k0 + ((t + 1 : Nat) : Int)) := by push_cast; omega
          simp only [b1, b2]
    · intro l hl
      simp only []
      rw [if_neg (by rintro ⟨h, _⟩; exact hl h), if_neg (by rintro ⟨h, _⟩; exact hl h)]
      exact e3 l hl

/-! ### Boxes -/

theorem snoc_slab {B : Box} {n : Int} (a b : Int) : slab (B ++ [(0, n)]) B.length a b = B ++ [(a, b)] := by
  unfold slab; simp

/-- `imin` and `imax` for the cells of `B` in an array over `G` with `n` components per cell. -/
theorem bounds_eq {q : Chunk α} {G B : Box} {n : Nat} (hr : q.arr.rng = Range.setup (G ++ [(0, (n : Int))]))
    (hw : Range.Within G B) (hp : Pos B) (hn : 1 ≤ n) :
    bounds q (Range.setup (B ++ [(0, 1)])) =
      .ok ((n : Int) * offset G (B.map Prod.fst), n * offset G (B.map fun d => d.2 - 1) + 2) := by
  have hl : B.length = G.length := hw.length_eq.symm
  have hw' : Range.Within (G ++ [(0, (n : Int))]) (B ++ [((0 : Int), (1 : Int))]) := by
    unfold Range.Within at hw ⊢
    refine List.rel_append hw ?_
    simp; omega
  have hp' : Pos (B ++ [((0 : Int), (1 : Int))]) := by
    rw [pos_append]; exact ⟨hp, by intro d hd; simp at hd; subst hd; decide⟩
  unfold bounds IFace.indexer
  rw [hr]
  have hinc := (Range.includes_iff (r := Range.setup (G ++ [(0, (n : Int))])) (q := Range.setup (B ++ [((0 : Int), (1 : Int))]))).2 hw'
  obtain ⟨hf, _⟩ := Props.C08_final_linear_index (by simp [Range.numDims]) hinc hp'
  simp only []
  rw [hf]
  have hm := Indexer.make_eq_at (sub := Range.setup (B ++ [((0 : Int), (1 : Int))])) (sup := Range.setup (G ++ [(0, (n : Int))])) (by simp) hw'
  rw [hm]
  simp only [Range.setup_dims, Indexer.onCell, List.map_append, List.map_cons, List.map_nil]
  rw [offset_snoc (by simp [hl]), offset_snoc (by simp [hl])]
  show Res.ok _ = _
  congr 2 <;> ring

/-- The interior of a mesh with points and components, without the components. -/
theorem layout_split {M : Box} {p n : Int} : M ++ [(0, p), (0, n)] = (M ++ [(0, p)]) ++ [(0, n)] := by simp

theorem within_grow {M : Box} {g : Int} (hg : 0 ≤ g) (D : Box) : Range.Within (grow g M ++ D) (M ++ D) := by
  rw [within_iff]
  refine ⟨by simp [grow], ?_⟩
  intro j hj
  by_cases h : j < M.length
  · rw [lo_append h, hi_append h, lo_append (by simpa [grow] using h), hi_append (by simpa [grow] using h), lo_grow h, hi_grow h]
    omega
  · have h' : M.length ≤ j := by omega
    have hg' : (grow g M).length = M.length := by simp [grow]
    rw [lo_append_right h', hi_append_right h', lo_append_right (by omega), hi_append_right (by omega), hg']
    omega

theorem pos_corner {B : Box} (h : Pos B) : InBox B (B.map Prod.fst) ∧ InBox B (B.map fun d => d.2 - 1) := by
  unfold InBox Pos at *
  rw [List.forall₂_map_right_iff, List.forall₂_map_right_iff, List.forall₂_same, List.forall₂_same]
  exact ⟨fun d hd => ⟨le_refl _, h d hd⟩, fun d hd => ⟨by have := h d hd; omega, by omega⟩⟩

/-- The offsets of the cells of a sub-box lie between those of its corners. -/
theorem offset_mono {G : Box} (hG : Pos G) : ∀ {x y : Cell}, x.length = G.length → List.Forall₂ (· ≤ ·) x y →
    offset G x ≤ offset G y := by
  induction G with
  | nil =>
    intro x y hx h
    cases h with
    | nil => exact le_refl _
    | cons _ _ => simp at hx
  | cons d G ih =>
    intro x y hx h
    cases h with
    | nil => simp at hx
    | @cons a b as bs h1 h2 =>
      have l1 : as.length = G.length := by simpa using hx
      have l2 : bs.length = G.length := by rw [← h2.length_eq]; exact l1
      rw [offset_cons l1, offset_cons l2]
      have := ih hG.tail l1 h2
      have := boxVolume_pos hG.tail
      nlinarith

theorem corner_le {B : Box} {x : Cell} (h : InBox B x) : List.Forall₂ (· ≤ ·) (B.map Prod.fst) x ∧
    List.Forall₂ (· ≤ ·) x (B.map fun d => d.2 - 1) := by
  unfold InBox at h
  rw [List.forall₂_map_left_iff, List.forall₂_map_right_iff]
  refine ⟨h.imp fun a b hab => hab.1, ?_⟩
  exact (h.imp fun (a : Int × Int) b hab => (show b ≤ a.2 - 1 by omega)).flip

section Sweep
variable {q rhs : Chunk α} {g : Int} {M : Box} {p n : Nat} {u : Cell → Nat → α} {dim : Nat}

omit [Arith α] in
theorem stride_eq (hl : q.Layout g M [(0, (p : Int)), (0, (n : Int))]) (hd : dim < M.length) :
    vget q.arr.rng.stride (dim : Int) = .ok (n * boxVolume ((grow g M ++ [(0, (p : Int))]).drop (dim + 1))) := by
  rw [hl.arr_range]
  refine vget_of_getElem? ?_
  have hdl : dim < (grow g M ++ [(0, (p : Int))]).length := by simp [grow]; omega
  rw [Range.setup_stride, Range.strideLoop_getElem? _ _ (by simp [grow]; omega), layout_split,
    List.drop_append_of_le_length (by omega), boxVolume_append]
  have e : boxVolume [((0 : Int), (n : Int))] = n := by simp [boxVolume, lengths]
  rw [e, mul_comm]

theorem elem_of_holds (hl : q.Layout g M [(0, (p : Int)), (0, (n : Int))]) (hu : q.Holds (grow g M ++ [(0, (p : Int))]) n u)
    {x : Cell} (hx : InBox (grow g M ++ [(0, (p : Int))]) x) {j : Nat} (hj : j < n) :
    elem q.arr.data (n * offset (grow g M ++ [(0, (p : Int))]) x + j) = u x j := by
  have := hu x hx j hj
  unfold IFace.val at this
  rw [hl.dims, layout_split, offset_snoc (by rw [hx.length_eq])] at this
  unfold elem
  simp [this]

theorem wallFlux_eq (hl : q.Layout g M [(0, (p : Int)), (0, (n : Int))]) (hu : q.Holds (grow g M ++ [(0, (p : Int))]) n u)
    (hd : dim < M.length) (φ : List α → List α → List α) {x : Cell}
    (hx : ∀ t : Int, -2 ≤ t → t ≤ 1 → InBox (grow g M ++ [(0, (p : Int))]) (moveBy x dim t)) {i : Int}
    (hi : i = n * offset (grow g M ++ [(0, (p : Int))]) x) :
    wallFlux φ n (elem q.arr.data) (n * boxVolume ((grow g M ++ [(0, (p : Int))]).drop (dim + 1))) i = faceFlux φ n u dim x := by
  have hx0 := hx 0 (by decide) (by decide)
  rw [moveBy_zero] at hx0
  have key : ∀ t : Int, -2 ≤ t → t ≤ 1 → ∀ j < n,
      elem q.arr.data (i + t * (n * boxVolume ((grow g M ++ [(0, (p : Int))]).drop (dim + 1))) + j) = u (moveBy x dim t) j := by
    intro t h1 h2 j hj
    rw [← elem_of_holds hl hu (hx t h1 h2) hj, offset_moveBy hx0.length_eq (by simp [grow]; omega), hi]
    congr 1; ring
  unfold wallFlux faceFlux
  have h : ∀ j < n, recon (elem q.arr.data (i - 2 * (n * boxVolume ((grow g M ++ [(0, (p : Int))]).drop (dim + 1))) + j))
      (elem q.arr.data (i - n * boxVolume ((grow g M ++ [(0, (p : Int))]).drop (dim + 1)) + j)) (elem q.arr.data (i + j))
      (elem q.arr.data (i + n * boxVolume ((grow g M ++ [(0, (p : Int))]).drop (dim + 1)) + j)) =
      recon (u (moveBy x dim (-2)) j) (u (moveBy x dim (-1)) j) (u x j) (u (moveBy x dim 1) j) := by
    intro j hj
    have e1 := key (-2) (by decide) (by decide) j hj
    have e2 := key (-1) (by decide) (by decide) j hj
    have e3 := key 0 (by decide) (by decide) j hj
    have e4 := key 1 (by decide) (by decide) j hj
    rw [moveBy_zero, zero_mul, add_zero] at e3
    rw [neg_mul, ← sub_eq_add_neg] at e1
    rw [neg_mul, one_mul, ← sub_eq_add_neg] at e2
    rw [one_mul] at e4
    rw [e1, e2, e3, e4]
  congr 1 <;>
  · refine List.map_congr_left fun j hj => ?_
    rw [List.mem_range] at hj
    rw [h j hj]

/-- Everything about the iterations of the parallel kernel in one direction. -/
theorem itersMp_eq (hl : q.Layout g M [(0, (p : Int)), (0, (n : Int))]) (hM : Pos M) (hp : 1 ≤ p) (hn : 1 ≤ n) (hg : 0 ≤ g)
    (hd : dim < M.length) {grid : Rectilinear α} {d : α} (hdx : grid.dx dim = .ok d) (flux : Flux α) :
    itersMp n flux grid q dim = .ok ((steps (n * offset (grow g M ++ [(0, (p : Int))]) ((M ++ [(0, (p : Int))]).map Prod.fst))
      (n * offset (grow g M ++ [(0, (p : Int))]) ((M ++ [(0, (p : Int))]).map fun d : Int × Int => d.2 - 1) + 2) n).map
      (iterMp n flux d (n * boxVolume ((grow g M ++ [(0, (p : Int))]).drop (dim + 1))))) := by
  unfold itersMp
  rw [hdx, Res.ok_bind, stride_eq hl hd, Res.ok_bind]
  simp only []
  have e : (q.internal.copy.numDims : Int) - 1 = ((M ++ [(0, (p : Int))]).length : Nat) := by
    rw [hl.internal]; simp [Range.numDims, Range.copy]; omega
  rw [e, hl.internal, Range.copy_setup, set_setup (by simp), layout_split, snoc_slab, Res.ok_bind,
    bounds_eq (G := grow g M ++ [(0, (p : Int))]) (B := M ++ [(0, (p : Int))]) (by rw [hl.arr_range, layout_split])
      (within_grow hg _) (by rw [pos_append]; exact ⟨hM, by intro d hd; simp at hd; subst hd; simp; omega⟩) hn]
  rfl

/-- One direction of the parallel kernel, as memory: `m` after the loop. -/
theorem mp_mem (hq : q.Layout g M [(0, (p : Int)), (0, (n : Int))]) (hr : rhs.Layout g M [(0, (p : Int)), (0, (n : Int))])
    (hM : Pos M) (hp : 1 ≤ p) (hn : 2 ≤ n) (hg : 2 ≤ g) (hu : q.Holds (grow g M ++ [(0, (p : Int))]) n u)
    (hd : dim < M.length) {flux : Flux α} {φ : List α → List α → List α} (hφ : IsFlux n flux φ) (d : α) :
    ∃ m', runAll ((steps (n * offset (grow g M ++ [(0, (p : Int))]) ((M ++ [(0, (p : Int))]).map Prod.fst))
      (n * offset (grow g M ++ [(0, (p : Int))]) ((M ++ [(0, (p : Int))]).map fun d : Int × Int => d.2 - 1) + 2) n).map
      (iterMp n flux d (n * boxVolume ((grow g M ++ [(0, (p : Int))]).drop (dim + 1))))) (Mem.of [q.arr.data, rhs.arr.data]) = .ok m' ∧
      (∀ x, InBox (M ++ [(0, (p : Int))]) x → ∀ j < n,
        m' (1, n * offset (grow g M ++ [(0, (p : Int))]) x + j) = (rhs.arr.val (x ++ [(j : Int)])).map (fun r =>
          r + (faceFlux φ n u dim x).getD j (Arith.lit 0) / d - (faceFlux φ n u dim (moveBy x dim 1)).getD j (Arith.lit 0) / d)) ∧
      (∀ i : Int, (m' (1, i)).isSome = (Mem.of [q.arr.data, rhs.arr.data] (1, i)).isSome) ∧
      (∀ w : Nat → α, (∀ y, InBox (grow g M ++ [(0, (p : Int))]) y → ∀ j < n, u y j = w j) → ∀ i : Int,
        ∃ f : α, m' (1, i) = Mem.of [q.arr.data, rhs.arr.data] (1, i) ∨
          m' (1, i) = (Mem.of [q.arr.data, rhs.arr.data] (1, i)).map (fun r => r + f / d - f / d)) := by
  have hpp : Pos (M ++ [((0 : Int), (p : Int))]) := by
    rw [pos_append]; exact ⟨hM, by intro d hd; simp at hd; subst hd; simp; omega⟩
  have hgp : Pos (grow g M ++ [((0 : Int), (p : Int))]) := by
    rw [pos_append]; exact ⟨pos_grow (by omega) hM, by intro d hd; simp at hd; subst hd; simp; omega⟩
  have hlen : ∀ c : Chunk α, c.Layout g M [(0, (p : Int)), (0, (n : Int))] →
      (c.arr.data.length : Int) = n * boxVolume (grow g M ++ [(0, (p : Int))]) := by
    intro c hc
    rw [hc.arr_size, hc.arr_range, Range.volume_setup (by simp), layout_split, boxVolume_append]
    have e : boxVolume [((0 : Int), (n : Int))] = n := by simp [boxVolume, lengths]
    rw [e, mul_comm]
  have hS : 0 < boxVolume ((grow g M ++ [((0 : Int), (p : Int))]).drop (dim + 1)) :=
    boxVolume_pos fun d hd => hgp d (List.mem_of_mem_drop hd)
  obtain ⟨c1, c2⟩ := pos_corner hpp
  have hmv : ∀ x, InBox (M ++ [((0 : Int), (p : Int))]) x → ∀ t : Int, -2 ≤ t → t ≤ 2 →
      InBox (grow g M ++ [((0 : Int), (p : Int))]) (moveBy x dim t) := by
    intro x hx t h1 h2
    exact inBox_moveBy_grow hx hd (by omega) (by omega)
  have hoff : ∀ x, InBox (M ++ [((0 : Int), (p : Int))]) x → ∀ t : Int, offset (grow g M ++ [((0 : Int), (p : Int))]) (moveBy x dim t) =
      offset (grow g M ++ [((0 : Int), (p : Int))]) x + t * boxVolume ((grow g M ++ [((0 : Int), (p : Int))]).drop (dim + 1)) := by
    intro x hx t
    exact offset_moveBy (by rw [hx.length_eq]; simp [grow]) (by simp [grow]; omega) t
  have b1 := (offset_nonneg hgp (hmv _ c1 (-2) (by decide) (by decide))).1
  rw [hoff _ c1] at b1
  have b2 := (offset_nonneg hgp (hmv _ c2 2 (by decide) (by decide))).2
  rw [hoff _ c2] at b2
  obtain ⟨m', e1, e2, e3, e4⟩ := mp_line
    (k0 := offset (grow g M ++ [(0, (p : Int))]) ((M ++ [(0, (p : Int))]).map Prod.fst))
    (k1 := offset (grow g M ++ [(0, (p : Int))]) ((M ++ [(0, (p : Int))]).map fun d : Int × Int => d.2 - 1)) hn hφ d (hlen q hq) (hlen rhs hr) (le_of_lt hS) (by linarith) (by linarith)
  refine ⟨m', e1, ?_, ?_, ?_⟩
  · intro x hx j hj
    have hxg := inBox_interior (by omega : (0:Int) ≤ g) hx
    obtain ⟨o1, o2⟩ := corner_le hx
    have k1 := offset_mono hgp (by simp [grow]) o1
    have k2 := offset_mono hgp (by rw [hxg.length_eq]) o2
    rw [e2 _ k1 k2 j hj, wallFlux_eq hq hu hd φ (x := x) (fun t h1 h2 => hmv x hx t h1 (by omega)) rfl,
      wallFlux_eq hq hu hd φ (x := moveBy x dim 1) (fun t h1 h2 => by
        rw [moveBy_moveBy]; exact hmv x hx (1 + t) (by omega) (by omega)) (by rw [hoff x hx]; ring)]
    have h0 := (offset_nonneg hgp hxg).1
    have hn0 : (0 : Int) ≤ n := by omega
    congr 1
    unfold IFace.val
    rw [mem_of_one (by positivity), hr.dims, layout_split, offset_snoc (by rw [hxg.length_eq])]
  · intro i
    have hn' : (0 : Int) < n := by omega
    have hk := Int.emod_add_mul_ediv i n
    have h1 := Int.emod_nonneg i hn'.ne'
    have h2 := Int.emod_lt_of_pos i hn'
    have hi : i = n * (i / n) + ((i % n).toNat : Int) := by
      have : ((i % n).toNat : Int) = i % n := by omega
      rw [this]; linarith
    rw [hi]
    by_cases c : offset (grow g M ++ [(0, (p : Int))]) ((M ++ [(0, (p : Int))]).map Prod.fst) ≤ i / n ∧
        i / n ≤ offset (grow g M ++ [(0, (p : Int))]) ((M ++ [(0, (p : Int))]).map fun d : Int × Int => d.2 - 1)
    · rw [e2 _ c.1 c.2 _ (by omega), Option.isSome_map]
    · rw [e3 _ c _ (by omega)]
  · intro w hw i
    have hn' : (0 : Int) < n := by omega
    have h1 := Int.emod_nonneg i hn'.ne'
    have h2 := Int.emod_lt_of_pos i hn'
    have hi : i = n * (i / n) + ((i % n).toNat : Int) := by
      have hk := Int.emod_add_mul_ediv i n
      have : ((i % n).toNat : Int) = i % n := by omega
      rw [this]; linarith
    have hj : (i % n).toNat < n := by omega
    generalize (i % n).toNat = j at hi hj
    generalize i / n = k at hi
    subst hi
    have hc : ∀ K : Int, 0 ≤ K → K < boxVolume (grow g M ++ [((0 : Int), (p : Int))]) → ∀ j < n, elem q.arr.data (n * K + j) = w j := by
      intro K hK0 hK1 j hj
      obtain ⟨y, hy, rfl⟩ := offset_surj hgp hK0 hK1
      rw [elem_of_holds hq hu hy hj, hw y hy j hj]
    have hF : ∀ K : Int, 0 ≤ K - 2 * boxVolume ((grow g M ++ [((0 : Int), (p : Int))]).drop (dim + 1)) →
        K + boxVolume ((grow g M ++ [((0 : Int), (p : Int))]).drop (dim + 1)) < boxVolume (grow g M ++ [((0 : Int), (p : Int))]) →
        wallFlux φ n (elem q.arr.data) (n * boxVolume ((grow g M ++ [((0 : Int), (p : Int))]).drop (dim + 1))) (n * K) =
          faceFlux φ n (fun _ => w) dim [] := by
      intro K h1 h2
      generalize boxVolume ((grow g M ++ [((0 : Int), (p : Int))]).drop (dim + 1)) = S at *
      unfold wallFlux faceFlux
      have e : ∀ j < n, recon (elem q.arr.data (n * K - 2 * (n * S) + j)) (elem q.arr.data (n * K - n * S + j))
          (elem q.arr.data (n * K + j)) (elem q.arr.data (n * K + n * S + j)) = recon (w j) (w j) (w j) (w j) := by
        intro j hj
        rw [show n * K - 2 * (n * S) + j = n * (K - 2 * S) + j by ring, show n * K - n * S + j = n * (K - S) + j by ring,
          show n * K + n * S + j = n * (K + S) + j by ring, hc _ (by omega) (by omega) j hj, hc _ (by omega) (by omega) j hj,
          hc _ (by omega) (by omega) j hj, hc _ (by omega) (by omega) j hj]
      simp only []
      congr 1 <;>
      · refine List.map_congr_left fun j hj => ?_
        rw [List.mem_range] at hj
        rw [e j hj]
    refine ⟨(faceFlux φ n (fun _ => w) dim []).getD j (Arith.lit 0), ?_⟩
    by_cases c : offset (grow g M ++ [(0, (p : Int))]) ((M ++ [(0, (p : Int))]).map Prod.fst) ≤ k ∧
        k ≤ offset (grow g M ++ [(0, (p : Int))]) ((M ++ [(0, (p : Int))]).map fun d : Int × Int => d.2 - 1)
    · right
      rw [e2 _ c.1 c.2 _ hj, hF k (by linarith) (by linarith), hF _ (by linarith) (by linarith)]
    · left
      exact e3 _ c _ hj

theorem runOn_spec {ps : List (Prog α Unit)} {m' : Mem α} (h : runAll ps (Mem.of [q.arr.data, rhs.arr.data]) = .ok m')
    (hs : ∀ i : Int, (m' (1, i)).isSome = (Mem.of [q.arr.data, rhs.arr.data] (1, i)).isSome) :
    ∃ rhs', runOn ps q rhs = .ok rhs' ∧ rhs.SameShape rhs' ∧
      ∀ i : Int, 0 ≤ i → rhs'.arr.data[i.toNat]? = m' (1, i) := by
  unfold runOn
  rw [h, Res.ok_bind]
  have hsome : ∀ i : Nat, (m' (1, (i : Int))).isSome ↔ i < rhs.arr.data.length := by
    intro i
    rw [hs, mem_of_one (by omega)]; simp
  have hex : m'.extract 1 rhs.arr.data.length = .ok ((List.range rhs.arr.data.length).map fun i : Nat =>
      (m' (1, (i : Int))).getD (Arith.lit 0)) := by
    refine extract_ok fun i hi => ?_
    obtain ⟨v, hv⟩ := Option.isSome_iff_exists.1 ((hsome i).2 hi)
    rw [hv]; rfl
  rw [hex, Res.ok_bind]
  refine ⟨_, rfl, ⟨rfl, by simp⟩, ?_⟩
  intro i hi
  have : ((i.toNat : Nat) : Int) = i := by omega
  rw [← this]
  generalize i.toNat = k
  simp only [List.getElem?_map]
  by_cases hk : k < rhs.arr.data.length
  · obtain ⟨v, hv⟩ := Option.isSome_iff_exists.1 ((hsome k).2 hk)
    simp [hk, hv]
  · have : ¬ (m' (1, (k : Int))).isSome := fun h => hk ((hsome k).1 h)
    simp at this
    simp [this, hk]

/-- One direction of the parallel kernel. -/
theorem sweepMp_spec (hq : q.Layout g M [(0, (p : Int)), (0, (n : Int))]) (hr : rhs.Layout g M [(0, (p : Int)), (0, (n : Int))])
    (hM : Pos M) (hp : 1 ≤ p) (hn : 2 ≤ n) (hg : 2 ≤ g) (hu : q.Holds (grow g M ++ [(0, (p : Int))]) n u)
    (hd : dim < M.length) {flux : Flux α} {φ : List α → List α → List α} (hφ : IsFlux n flux φ)
    {grid : Rectilinear α} {d : α} (hdx : grid.dx dim = .ok d) :
    ∃ rhs', sweepMp n flux grid q rhs dim = .ok rhs' ∧ rhs.SameShape rhs' ∧ rhs'.Layout g M [(0, (p : Int)), (0, (n : Int))] ∧
      ∀ x, InBox (M ++ [(0, (p : Int))]) x → ∀ j < n,
        rhs'.arr.val (x ++ [(j : Int)]) = (rhs.arr.val (x ++ [(j : Int)])).map (fun r =>
          r + (faceFlux φ n u dim x).getD j (Arith.lit 0) / d - (faceFlux φ n u dim (moveBy x dim 1)).getD j (Arith.lit 0) / d) := by
  obtain ⟨m', h1, h2, h3, _⟩ := mp_mem hq hr hM hp hn hg hu hd hφ d
  obtain ⟨rhs', e1, e2, e3⟩ := runOn_spec h1 h3
  have hL : rhs'.Layout g M [(0, (p : Int)), (0, (n : Int))] := hr.sameShape e2
  refine ⟨rhs', ?_, e2, hL, ?_⟩
  · unfold sweepMp
    rw [itersMp_eq hq hM hp (by omega) (by omega) hd hdx, Res.ok_bind]; exact e1
  · intro x hx j hj
    rw [← h2 x hx j hj]
    have hxg := inBox_interior (by omega : (0:Int) ≤ g) hx
    have h0 := (offset_nonneg hxg.pos hxg).1
    rw [← e3 _ (by positivity)]
    unfold IFace.val
    rw [hL.dims, layout_split, offset_snoc (by rw [hxg.length_eq])]

theorem steps_eq_range {n : Nat} (hn : 2 ≤ n) {k0 k1 : Int} (h : k0 ≤ k1 + 1) :
    steps (n * k0) (n * k1 + 2) n = (List.range (k1 - k0 + 1).toNat).map fun a : Nat => n * k0 + n * (a : Int) := by
  unfold steps
  have hn' : (0 : Int) < n := by omega
  have e : (n * k1 + 2 - n * k0 + (n : Int) - 1) / n = k1 - k0 + 1 := by
    have : n * k1 + 2 - n * k0 + (n : Int) - 1 = 1 + n * (k1 - k0 + 1) := by ring
    rw [this, Int.add_mul_ediv_left _ _ hn'.ne', Int.ediv_eq_zero_of_lt (by decide) (by omega)]
    ring
  rw [e]

theorem slab_corners {B : Box} {i : Nat} (h : i < B.length) :
    (slab B i (lo B i - 1) (hi B i)).map Prod.fst = moveBy (B.map Prod.fst) i (-1) ∧
    (slab B i (lo B i - 1) (hi B i)).map (fun d => d.2 - 1) = B.map fun d => d.2 - 1 := by
  unfold slab moveBy lo hi
  constructor
  · refine List.ext_getElem? fun j => ?_
    simp only [List.getElem?_map, List.getElem?_set, List.getElem?_modify]
    by_cases e : i = j
    · subst e; simp [h]; rfl
    · simp [e]
  · refine List.ext_getElem? fun j => ?_
    simp only [List.getElem?_map, List.getElem?_set]
    by_cases e : i = j
    · subst e; simp [h]
    · simp [e]

theorem itersFast_eq (hl : q.Layout g M [(0, (p : Int)), (0, (n : Int))]) (hM : Pos M) (hp : 1 ≤ p) (hn : 1 ≤ n) (hg : 1 ≤ g)
    (hd : dim < M.length) {grid : Rectilinear α} {d : α} (hdx : grid.dx dim = .ok d) (flux : Flux α) :
    itersFast n flux grid q dim = .ok ((steps
      (n * (offset (grow g M ++ [(0, (p : Int))]) ((M ++ [(0, (p : Int))]).map Prod.fst) -
        boxVolume ((grow g M ++ [(0, (p : Int))]).drop (dim + 1))))
      (n * offset (grow g M ++ [(0, (p : Int))]) ((M ++ [(0, (p : Int))]).map fun d : Int × Int => d.2 - 1) + 2) n).map
      (iterFast n flux d (n * boxVolume ((grow g M ++ [(0, (p : Int))]).drop (dim + 1))))) := by
  have hpp : Pos (M ++ [((0 : Int), (p : Int))]) := by
    rw [pos_append]; exact ⟨hM, by intro d hd; simp at hd; subst hd; simp; omega⟩
  unfold itersFast
  rw [hdx, Res.ok_bind, stride_eq hl hd, Res.ok_bind]
  have hdl : dim < (M ++ [((0 : Int), (p : Int))]).length := by simp; omega
  have hdl' : dim < (M ++ [((0 : Int), (p : Int)), (0, (n : Int))]).length := by simp; omega
  have ex : q.internal.copy.expand dim (-1) 0 = .ok (Range.setup
      (slab (M ++ [(0, (p : Int))]) dim (lo (M ++ [(0, (p : Int))]) dim - 1) (hi (M ++ [(0, (p : Int))]) dim) ++ [(0, (n : Int))])) := by
    unfold Range.expand
    rw [hl.internal, Range.copy_setup, lower_setup hdl', Res.ok_bind, upper_setup hdl', Res.ok_bind, set_setup hdl']
    congr 2
    rw [layout_split]
    unfold slab
    rw [List.set_append_left _ _ hdl, lo_append hdl, hi_append hdl, lo_append hd, hi_append hd]
    simp; ring_nf
  simp only []
  rw [ex, Res.ok_bind]
  have hsl : (slab (M ++ [(0, (p : Int))]) dim (lo (M ++ [(0, (p : Int))]) dim - 1) (hi (M ++ [(0, (p : Int))]) dim)).length =
      (M ++ [((0 : Int), (p : Int))]).length := by simp [slab]
  have e : ((Range.setup (slab (M ++ [(0, (p : Int))]) dim (lo (M ++ [(0, (p : Int))]) dim - 1) (hi (M ++ [(0, (p : Int))]) dim) ++
      [(0, (n : Int))])).numDims : Int) - 1 =
      ((slab (M ++ [(0, (p : Int))]) dim (lo (M ++ [(0, (p : Int))]) dim - 1) (hi (M ++ [(0, (p : Int))]) dim)).length : Nat) := by
    simp [Range.numDims]
  have hlo : lo (M ++ [((0 : Int), (p : Int))]) dim = lo M dim := lo_append hd
  have hhi : hi (M ++ [((0 : Int), (p : Int))]) dim = hi M dim := hi_append hd
  have hlt : lo M dim < hi M dim := (pos_iff M).1 hM dim hd
  rw [e, set_setup (by simp), snoc_slab, Res.ok_bind,
    bounds_eq (G := grow g M ++ [(0, (p : Int))]) (by rw [hl.arr_range, layout_split])
      (within_slab (by omega) hd (by omega) (by omega)) (pos_slab hpp hdl (by omega)) hn]
  obtain ⟨s1, s2⟩ := slab_corners hdl
  rw [s1, s2, offset_moveBy (by simp [grow]) (by simp [grow]; omega)]
  rw [neg_mul, one_mul, ← sub_eq_add_neg]
  rfl

/-- One direction of the serial kernel. -/
theorem sweepFast_spec (hq : q.Layout g M [(0, (p : Int)), (0, (n : Int))]) (hr : rhs.Layout g M [(0, (p : Int)), (0, (n : Int))])
    (hM : Pos M) (hp : 1 ≤ p) (hn : 2 ≤ n) (hg : 2 ≤ g) (hu : q.Holds (grow g M ++ [(0, (p : Int))]) n u)
    (hd : dim < M.length) {flux : Flux α} {φ : List α → List α → List α} (hφ : IsFlux n flux φ)
    {grid : Rectilinear α} {d : α} (hdx : grid.dx dim = .ok d) :
    ∃ rhs', sweepFast n flux grid q rhs dim = .ok rhs' ∧ rhs.SameShape rhs' ∧ rhs'.Layout g M [(0, (p : Int)), (0, (n : Int))] ∧
      ∀ x, InBox (M ++ [(0, (p : Int))]) x → ∀ j < n,
        rhs'.arr.val (x ++ [(j : Int)]) = (rhs.arr.val (x ++ [(j : Int)])).map (fun r =>
          r + (faceFlux φ n u dim x).getD j (Arith.lit 0) / d - (faceFlux φ n u dim (moveBy x dim 1)).getD j (Arith.lit 0) / d) := by
  have hpp : Pos (M ++ [((0 : Int), (p : Int))]) := by
    rw [pos_append]; exact ⟨hM, by intro d hd; simp at hd; subst hd; simp; omega⟩
  have hgp : Pos (grow g M ++ [((0 : Int), (p : Int))]) := by
    rw [pos_append]; exact ⟨pos_grow (by omega) hM, by intro d hd; simp at hd; subst hd; simp; omega⟩
  have hlen : ∀ c : Chunk α, c.Layout g M [(0, (p : Int)), (0, (n : Int))] →
      (c.arr.data.length : Int) = n * boxVolume (grow g M ++ [(0, (p : Int))]) := by
    intro c hc
    rw [hc.arr_size, hc.arr_range, Range.volume_setup (by simp), layout_split, boxVolume_append]
    have e : boxVolume [((0 : Int), (n : Int))] = n := by simp [boxVolume, lengths]
    rw [e, mul_comm]
  have hS : 0 < boxVolume ((grow g M ++ [((0 : Int), (p : Int))]).drop (dim + 1)) :=
    boxVolume_pos fun d hd => hgp d (List.mem_of_mem_drop hd)
  obtain ⟨c1, c2⟩ := pos_corner hpp
  have hmv : ∀ x, InBox (M ++ [((0 : Int), (p : Int))]) x → ∀ t : Int, -2 ≤ t → t ≤ 2 →
      InBox (grow g M ++ [((0 : Int), (p : Int))]) (moveBy x dim t) := by
    intro x hx t h1 h2
    exact inBox_moveBy_grow hx hd (by omega) (by omega)
  have hoff : ∀ x, InBox (M ++ [((0 : Int), (p : Int))]) x → ∀ t : Int, offset (grow g M ++ [((0 : Int), (p : Int))]) (moveBy x dim t) =
      offset (grow g M ++ [((0 : Int), (p : Int))]) x + t * boxVolume ((grow g M ++ [((0 : Int), (p : Int))]).drop (dim + 1)) := by
    intro x hx t
    exact offset_moveBy (by rw [hx.length_eq]; simp [grow]) (by simp [grow]; omega) t
  have b1 := (offset_nonneg hgp (hmv _ c1 (-2) (by decide) (by decide))).1
  rw [hoff _ c1] at b1
  have b2 := (offset_nonneg hgp (hmv _ c2 2 (by decide) (by decide))).2
  rw [hoff _ c2] at b2
  have b3 := offset_mono hgp (by simp [grow]) (corner_le c1).2
  generalize hK0 : offset (grow g M ++ [(0, (p : Int))]) ((M ++ [(0, (p : Int))]).map Prod.fst) = K0 at *
  generalize hK1 : offset (grow g M ++ [(0, (p : Int))]) ((M ++ [(0, (p : Int))]).map fun d : Int × Int => d.2 - 1) = K1 at *
  generalize hSS : boxVolume ((grow g M ++ [((0 : Int), (p : Int))]).drop (dim + 1)) = S at *
  have ht : (((K1 - (K0 - S) + 1).toNat : Nat) : Int) = K1 - (K0 - S) + 1 := by omega
  obtain ⟨m', e1, e2, e3⟩ := fast_line (k0 := K0 - S) (S := S) (by omega) hφ d (hlen q hq) (hlen rhs hr) (by omega) (by linarith)
    (K1 - (K0 - S) + 1).toNat (by rw [ht]; linarith)
  have hsome : ∀ i : Int, (m' (1, i)).isSome = (Mem.of [q.arr.data, rhs.arr.data] (1, i)).isSome := by
    intro i
    have hn' : (0 : Int) < n := by omega
    have hk := Int.emod_add_mul_ediv i n
    have h1 := Int.emod_nonneg i hn'.ne'
    have h2 := Int.emod_lt_of_pos i hn'
    have hi : i = n * (i / n) + ((i % n).toNat : Int) := by
      have : ((i % n).toNat : Int) = i % n := by omega
      rw [this]; linarith
    rw [hi, e2 _ _ (by omega), Option.isSome_map]
  have hps : (steps (n * (K0 - S)) (n * K1 + 2) n).map (iterFast n flux d (n * S)) =
      (List.range (K1 - (K0 - S) + 1).toNat).map fun a : Nat => iterFast n flux d (n * S) (n * (K0 - S) + n * a) := by
    rw [steps_eq_range hn (by omega), List.map_map]; rfl
  obtain ⟨rhs', f1, f2, f3⟩ := runOn_spec e1 hsome
  have hL : rhs'.Layout g M [(0, (p : Int)), (0, (n : Int))] := hr.sameShape f2
  refine ⟨rhs', ?_, f2, hL, ?_⟩
  · unfold sweepFast
    rw [itersFast_eq hq hM hp (by omega) (by omega) hd hdx, Res.ok_bind, hK0, hK1, hSS, hps]; exact f1
  · intro x hx j hj
    have hxg := inBox_interior (by omega : (0:Int) ≤ g) hx
    have h0 := (offset_nonneg hxg.pos hxg).1
    obtain ⟨o1, o2⟩ := corner_le hx
    have k1 := offset_mono hgp (by simp [grow]) o1
    have k2 := offset_mono hgp (by rw [hxg.length_eq]) o2
    rw [hK0] at k1
    rw [hK1] at k2
    have hn0 : (0 : Int) ≤ n := by omega
    have w1 := wallFlux_eq hq hu hd φ (x := x) (fun t h1 h2 => hmv x hx t h1 (by omega)) rfl
    have w2 := wallFlux_eq hq hu hd φ (x := moveBy x dim 1) (i := n * (offset (grow g M ++ [(0, (p : Int))]) x + S)) (fun t h1 h2 => by
        rw [moveBy_moveBy]; exact hmv x hx (1 + t) (by omega) (by omega)) (by rw [hoff x hx]; ring)
    rw [hSS] at w1 w2
    have hv : ∀ c : Chunk α, c.Layout g M [(0, (p : Int)), (0, (n : Int))] → c.arr.val (x ++ [(j : Int)]) =
        c.arr.data[(n * offset (grow g M ++ [(0, (p : Int))]) x + (j : Int)).toNat]? := by
      intro c hc
      unfold IFace.val
      rw [hc.dims, layout_split, offset_snoc (by rw [hxg.length_eq])]
    rw [hv _ hL, hv _ hr, f3 _ (by positivity), e2 _ j hj, mem_of_one (by positivity)]
    congr 1
    funext r
    simp only [ht]
    rw [if_pos (by constructor <;> linarith), if_pos (by constructor <;> linarith), w1, w2]

end Sweep

end FV
end QK
