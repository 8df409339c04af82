/-
Outcomes of C++ code.

`Res α` is the result of running a piece of the modelled code:
* `ok a`      normal completion with value/state `a`
* `throw m`   a C++ exception leaves the function
* `ub w`      undefined behaviour has been reached (out-of-bounds access, dereference of an end
              iterator, read of an uninitialised variable, aliasing of `__restrict__` pointers)
* `diverge`   the code runs for ever
Strings are labels for the reader; no theorem depends on their wording except where it says so.
-/
namespace QK

inductive Res (α : Type _) where
  | ok (a : α)
  | throw (msg : String)
  | ub (why : String)
  | diverge
  deriving DecidableEq, Repr

namespace Res

variable {α β γ : Type _}

/-- Machinery of the model, no counterpart in the code. -/
protected def bind (x : Res α) (f : α → Res β) : Res β :=
  match x with
  | ok a => f a
  | throw m => throw m
  | ub w => ub w
  | diverge => diverge

instance : Monad Res where
  pure := Res.ok
  bind := Res.bind

@[simp] theorem pure_eq (a : α) : (pure a : Res α) = ok a := rfl
@[simp] theorem ok_bind (a : α) (f : α → Res β) : (ok a >>= f) = f a := rfl
@[simp] theorem throw_bind (m : String) (f : α → Res β) : (throw m >>= f) = throw m := rfl
@[simp] theorem ub_bind (w : String) (f : α → Res β) : (ub w >>= f) = ub w := rfl
@[simp] theorem diverge_bind (f : α → Res β) : ((diverge : Res α) >>= f) = diverge := rfl
@[simp] theorem bind_ok (x : Res α) : (x >>= fun a => ok a) = x := by cases x <;> rfl
@[simp] theorem map_ok (f : α → β) (a : α) : (f <$> ok a) = ok (f a) := rfl

instance : LawfulMonad Res := LawfulMonad.mk'
  (id_map := fun x => by cases x <;> rfl)
  (pure_bind := fun _ _ => rfl)
  (bind_assoc := fun x _ _ => by cases x <;> rfl)

/-- `x` completes normally. Machinery of the model, no counterpart in the code. -/
def isOk (x : Res α) : Prop := ∃ a, x = ok a

theorem bind_eq_ok {x : Res α} {f : α → Res β} {b : β} :
    (x >>= f) = ok b ↔ ∃ a, x = ok a ∧ f a = ok b := by
  cases x <;> simp

end Res

/-- Checked `v[i]` of a `std::vector`/array (`operator[]` out of bounds is undefined behaviour). `std::vector` of the standard library. -/
def vget {α : Type _} (v : List α) (i : Int) : Res α :=
  if i < 0 then .ub "vector index out of range" else
  match v[i.toNat]? with
  | some a => .ok a
  | none => .ub "vector index out of range"

/-- Checked `v[i] = a`. `std::vector` of the standard library. -/
def vset {α : Type _} (v : List α) (i : Int) (a : α) : Res (List α) :=
  if 0 ≤ i ∧ i < v.length then .ok (v.set i.toNat a) else .ub "vector index out of range"

/-- `n` rounds of a loop; `inl` = go on, `inr` = left the loop. Machinery of the model, no counterpart in the code. -/
def iterN {σ ρ : Type _} (f : σ → Res (σ ⊕ ρ)) : Nat → σ → Res ρ
  | 0, _ => .diverge
  | n+1, s => f s >>= fun
      | .inl s' => iterN f n s'
      | .inr r => .ok r

open Classical in
/-- An unbounded C++ loop: the outcome reached after finitely many rounds if there is one,
`diverge` otherwise. (`iterN` with more rounds never changes an outcome already reached, see
`iterN_mono`, so this is the limit of the finite runs and the loop satisfies its unfolding
equation `iter_unfold`.) Machinery of the model, no counterpart in the code. -/
noncomputable def iter {σ ρ : Type _} (f : σ → Res (σ ⊕ ρ)) (s : σ) : Res ρ :=
  if h : ∃ n, iterN f n s ≠ .diverge then iterN f h.choose s else .diverge

section
variable {σ ρ : Type _} {f : σ → Res (σ ⊕ ρ)}

theorem iterN_succ (n : Nat) (s : σ) : iterN f (n+1) s = (f s >>= fun
      | .inl s' => iterN f n s'
      | .inr r => .ok r) := rfl

theorem iterN_mono {n : Nat} : ∀ {s : σ}, iterN f n s ≠ .diverge →
    ∀ {m : Nat}, n ≤ m → iterN f m s = iterN f n s := by
  induction n with
  | zero => intro s h; exact absurd rfl h
  | succ n ih =>
    intro s h m hm
    obtain ⟨m, rfl⟩ : ∃ k, m = k + 1 := ⟨m - 1, by omega⟩
    rw [iterN_succ] at h ⊢
    rw [iterN_succ]
    cases hf : f s with
    | ok x =>
      rw [hf] at h
      cases x with
      | inl s' => exact ih h (by omega)
      | inr r => rfl
    | throw m => rfl
    | ub w => rfl
    | diverge => rfl

theorem iter_eq_of_iterN {n : Nat} {s : σ} (h : iterN f n s ≠ .diverge) :
    iter f s = iterN f n s := by
  have hex : ∃ n, iterN f n s ≠ .diverge := ⟨n, h⟩
  unfold iter
  rw [dif_pos hex]
  rcases Nat.le_total n hex.choose with hle | hle
  · exact iterN_mono h hle
  · exact (iterN_mono hex.choose_spec hle).symm

theorem iter_eq_ok_of_iterN {n : Nat} {s : σ} {r : ρ} (h : iterN f n s = .ok r) :
    iter f s = .ok r := by
  rw [iter_eq_of_iterN (n := n) (by rw [h]; simp), h]

theorem iter_eq_diverge_iff {s : σ} : iter f s = .diverge ↔ ∀ n, iterN f n s = .diverge := by
  constructor
  · intro h n
    apply Classical.byContradiction
    intro hn
    rw [iter_eq_of_iterN hn] at h
    exact hn h
  · intro h
    unfold iter
    rw [dif_neg]
    rintro ⟨n, hn⟩
    exact hn (h n)

/-- Unfolding equation of a loop. -/
theorem iter_unfold (f : σ → Res (σ ⊕ ρ)) (s : σ) : iter f s = (f s >>= fun
      | .inl s' => iter f s'
      | .inr r => .ok r) := by
  cases hf : f s with
  | ok x =>
    cases x with
    | inl s' =>
      simp only [Res.ok_bind]
      by_cases hd : iter f s' = .diverge
      · rw [hd]
        rw [iter_eq_diverge_iff] at hd ⊢
        intro n
        cases n with
        | zero => rfl
        | succ n => rw [iterN_succ, hf]; exact hd n
      · have : ∃ n, iterN f n s' ≠ .diverge := by
          apply Classical.byContradiction
          intro hno
          apply hd
          rw [iter_eq_diverge_iff]
          intro n
          apply Classical.byContradiction
          intro hn
          exact hno ⟨n, hn⟩
        obtain ⟨n, hn⟩ := this
        have h1 : iterN f (n+1) s = iterN f n s' := by rw [iterN_succ, hf]; rfl
        rw [iter_eq_of_iterN hn, iter_eq_of_iterN (n := n+1) (by rw [h1]; exact hn), h1]
    | inr r =>
      simp only [Res.ok_bind]
      exact iter_eq_ok_of_iterN (n := 1) (by rw [iterN_succ, hf]; rfl)
  | throw m =>
    simp only [Res.throw_bind]
    have : iterN f 1 s = .throw m := by rw [iterN_succ, hf]; rfl
    rw [iter_eq_of_iterN (n := 1) (by rw [this]; simp), this]
  | ub w =>
    simp only [Res.ub_bind]
    have : iterN f 1 s = .ub w := by rw [iterN_succ, hf]; rfl
    rw [iter_eq_of_iterN (n := 1) (by rw [this]; simp), this]
  | diverge =>
    simp only [Res.diverge_bind]
    rw [iter_eq_diverge_iff]
    intro n
    cases n with
    | zero => rfl
    | succ n => rw [iterN_succ, hf]; rfl

/-- A loop that can always go on never ends. -/
theorem iter_diverge (P : σ → Prop) (hstep : ∀ s, P s → ∃ s', f s = .ok (.inl s') ∧ P s')
    {s : σ} (hs : P s) : iter f s = .diverge := by
  rw [iter_eq_diverge_iff]
  intro n
  induction n generalizing s with
  | zero => rfl
  | succ n ih =>
    obtain ⟨s', h1, h2⟩ := hstep s hs
    rw [iterN_succ, h1]
    exact ih h2

end

section
variable {α : Type _}

theorem vget_ok {v : List α} {i : Nat} {a : α} (h : v[i]? = some a) : vget v (i : Int) = .ok a := by
  unfold vget
  rw [if_neg (by omega)]
  simp [h]

theorem vget_nat {v : List α} {i : Nat} (h : i < v.length) : vget v (i : Int) = .ok v[i] :=
  vget_ok (List.getElem?_eq_getElem h)

theorem vget_eq_ok_iff {v : List α} {i : Int} {a : α} :
    vget v i = .ok a ↔ 0 ≤ i ∧ v[i.toNat]? = some a := by
  unfold vget
  split
  · rename_i h; simp; omega
  · rename_i h
    cases hv : v[i.toNat]? with
    | none => simp
    | some b => simp; intro _; omega

theorem vset_nat {v : List α} {i : Nat} {a : α} (h : i < v.length) :
    vset v (i : Int) a = .ok (v.set i a) := by
  unfold vset
  rw [if_pos (by omega)]
  simp

end

end QK
