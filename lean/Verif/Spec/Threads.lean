import Verif.Model.Threads
import Verif.Spec.Client
/-
Executions of programs made of calls (Spec/Client.lean) by several threads. Every call may be scheduled in its own way.
-/
namespace QK

/-- What a call does if its parallel loops are run with a schedule. -/
noncomputable def Call.runWith {α : Type} [Arith α] (s : Schedule α) : Call α → SM (Mgr α) Unit
  | euler gamma ins outs => Solve.eulerWith s gamma ins outs
  | maxwell c ins outs => Solve.maxwellWith s c ins outs
  | ssprk3 ins outs tag => Solve.ssprk3With s true ins outs tag
  | c => c.run

/-- `p.Runs m r`: some execution of the program from manager `m` has outcome `r`. -/
inductive Client.Runs {α : Type} [Arith α] : Client α → Mgr α → SRes (Mgr α) Unit → Prop
  | call {c : Call α} {m : Mgr α} {s : Schedule α} (legal : s.Legal) : Runs (.call c) m (c.runWith s m)
  | skip {m : Mgr α} : Runs .skip m (.ok () m)
  | seq {p q : Client α} {m m' : Mgr α} {r : SRes (Mgr α) Unit} (first : Runs p m (.ok () m')) (second : Runs q m' r) : Runs (.seq p q) m r
  | stop {p q : Client α} {m : Mgr α} {r : SRes (Mgr α) Unit} (first : Runs p m r) (fails : ∀ m', r ≠ .ok () m') : Runs (.seq p q) m r
  | never {p : Client α} {m : Mgr α} : Runs (.loop 0 p) m (.ok () m)
  | again {n : Nat} {p : Client α} {m : Mgr α} {r : SRes (Mgr α) Unit} (rounds : Runs (.seq p (.loop n p)) m r) : Runs (.loop (n + 1) p) m r
  | branch {b : Mgr α → Bool} {p q : Client α} {m : Mgr α} {r : SRes (Mgr α) Unit} (taken : Runs (if b m then p else q) m r) : Runs (.branch b p q) m r

end QK
