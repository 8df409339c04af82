import Mathlib.Logic.Function.Basic
import Verif.Model.Outcome
/-
Loop bodies as programs of single memory reads and writes, run one after another or interleaved.

A memory location is an array number and an index; a memory says which locations exist and what they
hold. Local variables of a loop body (`private` in the OpenMP pragmas) are Lean variables. Reading or
writing a location that does not exist is undefined behaviour.
-/
namespace QK

/-- Array number and index. Machinery of the model, no counterpart in the code. -/
abbrev Loc := Nat × Int

/-- Contents of the locations that exist. Machinery of the model, no counterpart in the code. -/
abbrev Mem (α : Type) := Loc → Option α

/-- A program of reads and writes. Machinery of the model, no counterpart in the code. -/
inductive Prog (α β : Type) where
  | ret (b : β)
  | rd (l : Loc) (k : α → Prog α β)
  | wr (l : Loc) (v : α) (k : Prog α β)
  /-- undefined behaviour that does not come from a shared access -/
  | fail (why : String)

namespace Prog
variable {α β γ : Type}

/-- Machinery of the model, no counterpart in the code. -/
protected def bind : Prog α β → (β → Prog α γ) → Prog α γ
  | ret b, f => f b
  | rd l k, f => rd l (fun v => (k v).bind f)
  | wr l v k, f => wr l v (k.bind f)
  | fail w, _ => fail w

instance : Monad (Prog α) where
  pure := ret
  bind := Prog.bind

theorem bind_assoc' (x : Prog α β) (f : β → Prog α γ) {δ : Type} (g : γ → Prog α δ) :
    (x.bind f).bind g = x.bind fun b => (f b).bind g := by
  induction x with
  | ret b => rfl
  | rd l k ih => simp only [Prog.bind]; congr 1; funext v; exact ih v
  | wr l v k ih => simp only [Prog.bind]; rw [ih]
  | fail w => rfl

theorem bind_ret (x : Prog α β) : x.bind ret = x := by
  induction x with
  | ret b => rfl
  | rd l k ih => simp only [Prog.bind]; congr 1; funext v; exact ih v
  | wr l v k ih => simp only [Prog.bind]; rw [ih]
  | fail w => rfl

instance : LawfulMonad (Prog α) := LawfulMonad.mk'
  (id_map := fun x => bind_ret x)
  (pure_bind := fun _ _ => rfl)
  (bind_assoc := fun x f g => bind_assoc' x f g)

/-- Read a location. Machinery of the model, no counterpart in the code. -/
def read (l : Loc) : Prog α α := rd l ret
/-- Write a location. Machinery of the model, no counterpart in the code. -/
def write (l : Loc) (v : α) : Prog α Unit := wr l v (ret ())
/-- Local computation. Machinery of the model, no counterpart in the code. -/
def ofRes : Res β → Prog α β
  | .ok b => ret b
  | .throw m => fail m
  | .ub w => fail w
  | .diverge => fail "does not end"

/-- Run alone. Machinery of the model, no counterpart in the code. -/
def run : Prog α β → Mem α → Res (β × Mem α)
  | ret b, m => .ok (b, m)
  | rd l k, m =>
    match m l with
    | some v => (k v).run m
    | none => .ub "read out of bounds"
  | wr l v k, m => if (m l).isSome then k.run (Function.update m l (some v)) else .ub "write out of bounds"
  | fail w, _ => .ub w

/-- Run the iterations of a loop one after another. Machinery of the model, no counterpart in the code. -/
def runAll (ps : List (Prog α Unit)) (m : Mem α) : Res (Mem α) :=
  ps.foldlM (fun m p => (fun r => r.2) <$> p.run m) m

/-- Parallel execution: any program that is not finished makes its next access. Every iteration may
proceed at any time; an OpenMP schedule (which runs the iterations given to a thread one after another)
allows fewer executions. (euler.cpp:60, maxwell.cpp:107, ssprk3.cpp:64 and the like.) -/
inductive Step : List (Prog α Unit) × Mem α → List (Prog α Unit) × Mem α → Prop
  | rd {pre post : List (Prog α Unit)} {l : Loc} {k : α → Prog α Unit} {m : Mem α} {v : α} (h : m l = some v) :
      Step (pre ++ .rd l k :: post, m) (pre ++ k v :: post, m)
  | wr {pre post : List (Prog α Unit)} {l : Loc} {v : α} {k : Prog α Unit} {m : Mem α} (h : (m l).isSome) :
      Step (pre ++ .wr l v k :: post, m) (pre ++ k :: post, Function.update m l (some v))

/-- All iterations are finished. Machinery of the model, no counterpart in the code. -/
def Done (ps : List (Prog α Unit)) : Prop := ∀ p ∈ ps, p = .ret ()

/-- The next access of the program, and whether it is a write. Machinery of the model, no counterpart in the code. -/
def next : Prog α β → Option (Loc × Bool)
  | rd l _ => some (l, false)
  | wr l _ _ => some (l, true)
  | _ => none

/-- The next action of some iteration is undefined: an access out of bounds, or a failed local
computation. Machinery of the model, no counterpart in the code. -/
def Bad (ps : List (Prog α Unit)) (m : Mem α) : Prop :=
  ∃ p ∈ ps, (∃ w, p = .fail w) ∨ ∃ l b, p.next = some (l, b) ∧ m l = none

/-- Data race: two iterations are about to access the same location, one of them writing. Machinery of the model, no counterpart in the code. -/
def Race (ps : List (Prog α Unit)) : Prop :=
  ∃ (i j : Nat) (p q : Prog α Unit) (l : Loc) (a b : Bool), i ≠ j ∧ ps[i]? = some p ∧ ps[j]? = some q ∧
    p.next = some (l, a) ∧ q.next = some (l, b) ∧ (a = true ∨ b = true)

end Prog

namespace Mem
variable {α : Type}

/-- The memory that holds the given arrays. Machinery of the model, no counterpart in the code. -/
def of (arrs : List (List α)) : Mem α := fun l =>
  (arrs[l.1]?).bind fun a => if l.2 < 0 then none else a[l.2.toNat]?

/-- The first `n` elements of array `a`. Machinery of the model, no counterpart in the code. -/
def extract (m : Mem α) (a n : Nat) : Res (List α) :=
  (List.range n).mapM (fun i : Nat =>
    match m (a, (i : Int)) with
    | some v => .ok v
    | none => .ub "no such element")

end Mem
end QK
