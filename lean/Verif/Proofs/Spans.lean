import Verif.Proofs.History
/-
What processing a command does to the collected text.
-/
namespace Thermal
namespace Renderer
variable {σ Out : Type} {R : OutputRenderer σ Out} {ext : Ext}

theorem deviceCommands_spans {ds : List DeviceCommand} {r r' : Renderer σ Out} (h : deviceCommands R ds r = .ok r') :
    r'.spanBuffer = r.spanBuffer :=
  (deviceCommands_rel (P := fun _ _ => True) (fun _ => trivial) (fun _ _ => trivial) (fun _ _ _ _ _ => trivial) h).2

/-- Commands other than text and text style leave no collected text behind. -/
theorem processCommand_flushes {cmd : Command} {r r' : Renderer σ Out} (h : processCommand R ext r cmd = .ok r')
    (hk : cmd.kind ≠ .text ∧ cmd.kind ≠ .textStyle ∧ cmd.kind ≠ .subcommand) : r'.spanBuffer = [] := by
  unfold processCommand at h
  split at h
  · simp only [bind_ok, pure_ok] at h
    obtain ⟨r1, h1, rfl⟩ := h
    exact (processText_quiet h1).3
  · rename_i hh; exact absurd hh hk.1
  · simp only [bind_ok] at h
    obtain ⟨r1, h1, g, h2, r2, h3, o, h4, h5⟩ := h
    rw [deviceCommands_spans h5]
    unfold processGraphicsOpt at h3
    split at h3
    · exact (processGraphics_context (processText_quiet h1).3 h3).2.1
    · rw [ok_ok] at h3; subst h3; exact (processText_quiet h1).3
  · simp only [bind_ok, pure_ok] at h
    obtain ⟨r1, h1, c, h2, rfl⟩ := h
    exact (processText_quiet h1).3
  · simp only [bind_ok] at h
    obtain ⟨r1, h1, c, h2, o, h3, h4⟩ := h
    rw [deviceCommands_spans h4]
    exact (processText_quiet h1).3
  · simp only [bind_ok] at h
    obtain ⟨o, h3, r1, h1, h4⟩ := h
    rw [deviceCommands_spans h4]
    exact (processText_quiet h1).3
  · rename_i hh; exact absurd hh hk.2.1
  · rename_i hh; exact absurd hh hk.2.2

/-- Text style commands (and sub-command shells, which the parser never returns) keep the collected text. -/
theorem processCommand_keeps {cmd : Command} {r r' : Renderer σ Out} (h : processCommand R ext r cmd = .ok r')
    (hk : cmd.kind = .textStyle ∨ cmd.kind = .subcommand) : r'.spanBuffer = r.spanBuffer := by
  unfold processCommand at h
  rcases hk with hk | hk <;> rw [hk] at h <;> dsimp only at h
  · simp only [bind_ok] at h
    obtain ⟨c, h2, o, h3, h4⟩ := h
    rw [deviceCommands_spans h4]
  · rw [pure_ok] at h; subst h; rfl

/-- Text commands add at most one span. -/
theorem processCommand_text {cmd : Command} {r r' : Renderer σ Out} (h : processCommand R ext r cmd = .ok r')
    (hk : cmd.kind = .text) : ∃ o, getText cmd r.context = .ok o ∧ r' = { r with spanBuffer := r.spanBuffer ++ o.toList } := by
  unfold processCommand at h
  rw [hk] at h
  dsimp only at h
  simp only [bind_ok] at h
  obtain ⟨o, h1, h⟩ := h
  refine ⟨o, h1, ?_⟩
  split at h <;> (rw [pure_ok] at h; subst h)
  · rfl
  · simp

/-- The span of a text command has the style of the context. -/
theorem getText_span {cmd : Command} {c : Context} {t} (h : getText cmd c = .ok (some t)) : ∃ s, t = TextSpan.new s c := by
  unfold getText at h
  split at h
  · simp only [bind_ok, pure_ok, Option.some.injEq] at h
    obtain ⟨s, _, rfl⟩ := h
    exact ⟨s, rfl⟩
  all_goals simp only [pure_ok, Option.some.injEq, reduceCtorEq] at h
  all_goals exact ⟨_, h.symm⟩

/-- An invariant of the collected spans. -/
theorem processCommand_spans_all {P : TextSpan → Prop} {cmd : Command} {r r' : Renderer σ Out}
    (hn : ∀ s, P (TextSpan.new s r.context)) (hr : ∀ t ∈ r.spanBuffer, P t) (h : processCommand R ext r cmd = .ok r') :
    ∀ t ∈ r'.spanBuffer, P t := by
  by_cases h1 : cmd.kind = .text
  · obtain ⟨o, h2, rfl⟩ := processCommand_text h h1
    intro t ht
    simp only [List.mem_append, Option.mem_toList] at ht
    rcases ht with ht | ht
    · exact hr t ht
    · rw [ht] at h2
      obtain ⟨s, rfl⟩ := getText_span h2
      exact hn s
  · by_cases h2 : cmd.kind = .textStyle ∨ cmd.kind = .subcommand
    · rw [processCommand_keeps h h2]; exact hr
    · rw [processCommand_flushes h ⟨h1, fun h => h2 (.inl h), fun h => h2 (.inr h)⟩]; simp

end Renderer
end Thermal
