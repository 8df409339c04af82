import Verif.Spec.Disk
/- Lemmas about output files on a medium (C133, C134). -/
namespace QK
open Spec SM

namespace Logged
variable {α : Type} [Arith α] (num : α → List Char)

/-- The requests for one file. -/
def fileLog (f : Nat × List (Tok α)) : List Action := .opened f.1 :: f.2.map (fun t => .wrote (Format.tokText num t)) ++ [.closed]

/-- The state of a run with the requests for its files. -/
def dress (r : Run α) : Logged α := ⟨r, r.files.flatMap (fileLog num)⟩

/-- Likewise for outcomes. -/
def dressed {β : Type} : SRes (Run α) β → SRes (Logged α) β
  | .ok b r => .ok b (dress num r)
  | .throw msg r => .throw msg (dress num r)
  | .ub w => .ub w
  | .diverge => .diverge

variable {num}

theorem dressed_bind {β γ : Type} {a : SM (Run α) β} {a' : SM (Logged α) β} {f : β → SM (Run α) γ} {f' : β → SM (Logged α) γ}
    (ha : ∀ r, a' (dress num r) = dressed num (a r)) (hf : ∀ b r, f' b (dress num r) = dressed num (f b r)) (r : Run α) :
    (a' >>= f') (dress num r) = dressed num ((a >>= f) r) := by
  simp only [bind, SM.bind]
  rw [ha]
  cases a r with
  | ok b r1 => exact hf b r1
  | throw => rfl
  | ub => rfl
  | diverge => rfl

theorem onRun_dress {β : Type} (x : SM (Mgr α) β) (r : Run α) : onRun (Run.onMgr x) (dress num r) = dressed num (Run.onMgr x r) := by
  unfold onRun Run.onMgr dress
  cases x r.mgr <;> rfl

theorem export_dress (canOpen : Nat → Bool) (k : Nat) (ids : List VarId) (r : Run α) :
    exportFrame num canOpen k ids (dress num r) = dressed num (Run.exportFrame canOpen k ids r) := by
  unfold exportFrame Run.exportFrame dress
  simp only
  cases Vtk.write r.mgr (canOpen k) ids [] with
  | ok u f => simp [dressed, dress, fileLog]
  | throw m f =>
    cases canOpen k
    · simp [dressed, dress]
    · simp [dressed, dress, fileLog]
  | ub => rfl
  | diverge => rfl

theorem frames_dress (canOpen : Nat → Bool) (ids : List VarId) (step : α → SM (Mgr α) α) (S : Nat) : ∀ (n i : Nat) (time : α) (r : Run α),
    frames num canOpen ids step S n i time (dress num r) = dressed num (Run.frames canOpen ids step S n i time r)
  | 0, _, _, _ => by rw [frames, Run.frames]; rfl
  | n + 1, i, time, r => by
    rw [frames, Run.frames]
    exact dressed_bind (onRun_dress _) (fun t => dressed_bind (export_dress _ _ _) (fun _ => frames_dress canOpen ids step S n (i + 1) t)) r

theorem main_dress (ic : SM (Mgr α) Unit) (canOpen : Nat → Bool) (ids : List VarId) (step : α → α → SM (Mgr α) α) (dt : α) (F S : Nat) (r : Run α) :
    main num ic canOpen ids step dt F S (dress num r) = dressed num (Run.main ic canOpen ids step dt F S r) := by
  rw [main, Run.main]
  exact dressed_bind (onRun_dress _) (fun _ => dressed_bind (export_dress _ _ _) (fun _ => dressed_bind (onRun_dress _) (fun _ => dressed_bind (onRun_dress _) (fun _ =>
    frames_dress _ _ _ _ _ _ _)))) r

end Logged

namespace Medium
variable {α : Type} {num : α → List Char} {room : Nat → Nat}

theorem act_wrotes (k : Nat) (done : List (Nat × List Char)) : ∀ (toks : List (Tok α)) (cs : List Char),
    (toks.map (fun t => Action.wrote (Format.tokText num t))).foldl (act room) ⟨done, some (k, cs.take (room k))⟩ = ⟨done, some (k, (cs ++ Format.fileText num toks).take (room k))⟩
  | [], cs => by simp [Format.fileText]
  | t :: ts, cs => by
    have e : act room ⟨done, some (k, cs.take (room k))⟩ (.wrote (Format.tokText num t)) = ⟨done, some (k, (cs ++ Format.tokText num t).take (room k))⟩ := by
      simp only [act, Option.map_some, Medium.mk.injEq, Option.some.injEq, Prod.mk.injEq, true_and]
      rw [List.take_append, List.take_append, List.take_take, min_self, List.length_take]
      congr 1
      by_cases h : cs.length ≤ room k
      · rw [min_eq_right h]
      · rw [min_eq_left (by omega), Nat.sub_self, Nat.sub_eq_zero_of_le (by omega)]
    rw [List.map_cons, List.foldl_cons, e, act_wrotes k done ts]
    simp [Format.fileText, List.append_assoc]

theorem act_opened (done : List (Nat × List Char)) (k : Nat) (toks : List (Tok α)) :
    (Action.opened k :: toks.map (fun t => Action.wrote (Format.tokText num t))).foldl (act room) ⟨done, none⟩ = ⟨done, some (k, (Format.fileText num toks).take (room k))⟩ := by
  rw [List.foldl_cons]
  have := act_wrotes (num := num) (room := room) k done toks []
  rw [List.take_nil, List.nil_append] at this
  exact this

theorem act_file (done : List (Nat × List Char)) (f : Nat × List (Tok α)) :
    (Logged.fileLog num f).foldl (act room) ⟨done, none⟩ = ⟨done ++ [(f.1, (Format.fileText num f.2).take (room f.1))], none⟩ := by
  unfold Logged.fileLog
  rw [List.foldl_append, act_opened]
  simp [act]

theorem act_files : ∀ (files : List (Nat × List (Tok α))) (done : List (Nat × List Char)),
    (files.flatMap (Logged.fileLog num)).foldl (act room) ⟨done, none⟩ = ⟨done ++ files.map fun f => (f.1, (Format.fileText num f.2).take (room f.1)), none⟩
  | [], done => by simp
  | f :: fs, done => by
    rw [List.flatMap_cons, List.foldl_append, act_file, act_files fs]
    simp

theorem prefix_append_cases {β : Type} {l A B : List β} (h : l <+: A ++ B) : l <+: A ∨ ∃ l', l = A ++ l' ∧ l' <+: B := by
  obtain ⟨t, h⟩ := h
  rcases List.append_eq_append_iff.1 h with ⟨a, e, -⟩ | ⟨c, e, e'⟩
  · exact .inl ⟨a, e.symm⟩
  · exact .inr ⟨c, e, t, e'.symm⟩

/-- A beginning of the requests: some files, and possibly a part of the requests for the next one. -/
theorem prefix_cases : ∀ {files : List (Nat × List (Tok α))} {l : List Action}, l <+: files.flatMap (Logged.fileLog num) →
    ∃ n, l = (files.take n).flatMap (Logged.fileLog num) ∨ ∃ f j, files[n]? = some f ∧
      l = (files.take n).flatMap (Logged.fileLog num) ++ (Action.opened f.1 :: (f.2.take j).map (fun t => Action.wrote (Format.tokText num t)))
  | [], l, h => ⟨0, .inl (by simpa using h)⟩
  | f :: fs, l, h => by
    rw [List.flatMap_cons] at h
    rcases prefix_append_cases h with h1 | ⟨l', rfl, h1⟩
    · rcases prefix_append_cases h1 with h2 | ⟨l', rfl, h2⟩
      · cases l with
        | nil => exact ⟨0, .inl rfl⟩
        | cons a l =>
          obtain ⟨rfl, h3⟩ := List.cons_prefix_cons.1 h2
          refine ⟨0, .inr ⟨f, l.length, rfl, ?_⟩⟩
          rw [List.map_take, ← List.prefix_iff_eq_take.1 h3]
          simp
      · cases l' with
        | nil => exact ⟨0, .inr ⟨f, f.2.length, rfl, by simp⟩⟩
        | cons a l' =>
          obtain ⟨rfl, h3⟩ := List.cons_prefix_cons.1 h2
          rw [List.prefix_nil.1 h3]
          exact ⟨1, .inl (by simp [Logged.fileLog])⟩
    · obtain ⟨n, h2 | ⟨f', j, h2, h3⟩⟩ := prefix_cases h1
      · exact ⟨n + 1, .inl (by simp [h2])⟩
      · exact ⟨n + 1, .inr ⟨f', j, by simpa using h2, by simp [h3]⟩⟩

end Medium
end QK
