import Verif.Model.Exception
/- Properties C67 and C77: `qk::exception`. -/
namespace QK.Props
open QK

/-- **C67**, what holds: construction from a string, copying (which is what `throw` does) and `<<` give the text one expects,
and printing with `<<` writes it. Missing: assignment, see `C67_false`, and `what()`, see `C77_false`. -/
theorem C67_partial (s t : String) :
    (Exc.ofString s).print = s ∧ (Exc.ofString s).copy.print = s ∧ ((Exc.ofString s).append t).copy.print = s ++ t := by
  simp [Exc.ofString, Exc.copy, Exc.append, Exc.print]

/-- **C67** is false: every assignment reads a destroyed string. And whatever that read yields, the old text is kept in
front, so the result is not the text of the right-hand side unless that begins with the old text. -/
theorem C67_false (a b : Exc) :
    Exc.assign a b = .ub "reads a destroyed string" ∧
    (∀ s, (a.assignReading s).text = a.text ++ s) ∧
    (¬ a.text.toList <+: b.text.toList → ∀ s, (a.assignReading s).print ≠ b.print) := by
  refine ⟨rfl, fun s => rfl, ?_⟩
  intro h s e
  apply h
  refine ⟨s.toList, ?_⟩
  rw [← String.toList_append]
  exact congrArg String.toList e

-- assigning "y" to "x"
example : ¬ (Exc.ofString "x").text.toList <+: (Exc.ofString "y").text.toList := by decide

/-- **C77** is false: for every exception that reaches `main`, the handler reads a destroyed string. -/
theorem C77_false (e : Exc) : Exc.mainHandler e = .ub "reads a destroyed string" := rfl

/-- **C77**, what would be printed: the announcement, and then what the read yields; the message of the exception is part of the output, at its end, only if the read yields a text that ends in it. -/
theorem C77_printed (s : String) : (Exc.handlerReading s).toList = "*** quikin exception caught ***\n".toList ++ s.toList ∧
    ∀ msg : String, '\n' ∉ msg.toList → (msg.toList <:+ (Exc.handlerReading s).toList ↔ msg.toList <:+ s.toList) := by
  have h : (Exc.handlerReading s).toList = "*** quikin exception caught ***\n".toList ++ s.toList := by
    unfold Exc.handlerReading; rw [String.toList_append]
  refine ⟨h, fun msg hm => ?_⟩
  rw [h]
  refine ⟨fun hs => ?_, fun hs => hs.trans (List.suffix_append _ _)⟩
  rcases List.suffix_or_suffix_of_suffix hs (List.suffix_append _ s.toList) with k | k
  · exact k
  · obtain ⟨u, hu⟩ := k
    obtain ⟨w, hw⟩ := hs
    rw [← hu, ← List.append_assoc] at hw
    have e := List.append_cancel_right hw
    rcases List.eq_nil_or_concat u with rfl | ⟨u', c, rfl⟩
    · rw [List.nil_append] at hu; rw [hu]; exact List.suffix_refl _
    · exfalso
      have hc : c = '\n' := by
        have := congrArg List.getLast? e
        simpa using this
      apply hm
      rw [← hu, hc]; simp

-- messages of the code have no line end
example : '\n' ∉ "qk::range::range: number of dims".toList := by decide

/-- **C77**, what holds: the exception that reaches the handler carries the text it was thrown with; printing it with the
stream operator of the class instead of `what()` would be defined and report it. Missing: the handler uses `what()`. -/
theorem C77_partial (s : String) : (Exc.ofString s).copy.print = s := (C67_partial s "").2.1

end QK.Props
