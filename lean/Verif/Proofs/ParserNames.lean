import Verif.Proofs.ParserInv
/-
What every returned command satisfies; names.
-/
namespace Thermal

/-- A predicate on the open command that is kept by every step carries over to everything emitted. -/
theorem run_all {J Q : Command → Prop} (hT : ∀ c ∈ escPosCommands, J c) (ht : J textCmd) (hu : J unknownCmd)
    (hdata : ∀ c d, J c → J { c with data := d })
    (hpush : ∀ c b c' ok, J c → c.push b = .ok (c', ok) → J c')
    (hem : ∀ c, J c → ∀ d ∈ emitted c, Q d) (hb : Q beginPrintCmd) (hun : Q unknownCmd)
    {bs s} (h : PS.init.run bs = .ok s) : (∀ c, s.cur = some c → J c) ∧ ∀ c ∈ s.out, Q c := by
  refine PS.run_induct (fun _ s => (∀ c, s.cur = some c → J c) ∧ ∀ c ∈ s.out, Q c) ?_ ?_ bs s h
  · constructor
    · intro c hc; simp [PS.init] at hc
    · intro c hc; simp [PS.init] at hc; subst hc; exact hb
  · intro xs s b s' _ ih hs
    have key : ∀ (s s' : PS), (∀ c, s.cur = some c → J c) ∧ (∀ c ∈ s.out, Q c) → SearchCase s b s' →
        (∀ c, s'.cur = some c → J c) ∧ ∀ c ∈ s'.out, Q c := by
      intro s s' ⟨i1, i2⟩ hsc
      have hOpt : ∀ c ∈ emittedOpt s.cur, Q c := by
        rcases hc : s.cur with _ | d
        · simp [emittedOpt]
        · exact hem d (i1 d hc)
      have hUnk : ∀ c ∈ emittedOrUnknown s.cur, Q c := by
        rcases hc : s.cur with _ | d
        · intro c hc; simp only [emittedOrUnknown, List.mem_singleton] at hc; subst hc; exact hun
        · exact hem d (i1 d hc)
      cases hsc with
      | complete c hl =>
        refine ⟨?_, ?_⟩
        · intro d hd; simp only [Option.some.injEq] at hd; subst hd; exact hT _ (look_complete hl).1
        · intro d hd; rcases List.mem_append.1 hd with h | h
          · exact i2 d h
          · exact hOpt d h
      | part hl => exact ⟨i1, i2⟩
      | lead hl hL =>
        refine ⟨?_, ?_⟩
        · intro d hd; simp only [Option.some.injEq] at hd; subst hd; exact hdata _ _ hu
        · intro d hd; rcases List.mem_append.1 hd with h | h
          · exact i2 d h
          · exact hUnk d h
      | append hl hL hd =>
        refine ⟨?_, i2⟩
        intro d hd
        simp only [Option.map_eq_some_iff] at hd
        obtain ⟨c, hc, rfl⟩ := hd
        exact hdata _ _ (i1 c hc)
      | text hl hL hd =>
        refine ⟨?_, ?_⟩
        · intro d hd; simp only [Option.some.injEq] at hd; subst hd; exact hdata _ _ ht
        · intro d hd; rcases List.mem_append.1 hd with h | h
          · exact i2 d h
          · exact hUnk d h
    cases step_case hs with
    | push c c' hp hd hc hpu =>
      refine ⟨?_, ih.2⟩
      intro d hd; simp only [Option.some.injEq] at hd; subst hd; exact hpush _ _ _ _ (ih.1 c hc) hpu
    | reject c c' hp hd hc hpu s' hsc =>
      refine key { s with cur := some c' } _ ⟨?_, ih.2⟩ hsc
      intro d hd; simp only [Option.some.injEq] at hd; subst hd; exact hpush _ _ _ _ (ih.1 c hc) hpu
    | search hns s' hsc => exact key s _ ih hsc

theorem parse_all {J Q : Command → Prop} (hT : ∀ c ∈ escPosCommands, J c) (ht : J textCmd) (hu : J unknownCmd)
    (hdata : ∀ c d, J c → J { c with data := d })
    (hpush : ∀ c b c' ok, J c → c.push b = .ok (c', ok) → J c')
    (hem : ∀ c, J c → ∀ d ∈ emitted c, Q d) (hb : Q beginPrintCmd) (he : Q endPrintCmd) (hun : Q unknownCmd)
    {bs cmds} (h : parseEscPos bs = .ok cmds) : ∀ c ∈ cmds, Q c := by
  rw [parseEscPos_eq] at h
  rcases hx : PS.init.run bs with e | s
  · rw [hx] at h; simp [Except.map] at h
  · rw [hx] at h
    simp only [Except.map, Except.ok.injEq] at h
    subst h
    obtain ⟨h1, h2⟩ := run_all hT ht hu hdata hpush hem hb hun hx
    intro c hc
    simp only [PS.finish, List.mem_append, List.mem_singleton] at hc
    rcases hc with (hc | hc) | hc
    · exact h2 c hc
    · rcases hcu : s.cur with _ | d
      · rw [hcu] at hc; simp [emittedOpt] at hc
      · rw [hcu] at hc; exact hem d (h1 d hcu) c hc
    · subst hc; exact he

/-! ### Names -/

/-- A printable ASCII character. -/
abbrev printableAscii (c : Char) : Prop := 32 ≤ c.toNat ∧ c.toNat ≤ 126

def okName (n : String) : Prop := ∀ c ∈ n.toList, printableAscii c
instance (n : String) : Decidable (okName n) := by unfold okName; infer_instance

def NameOk (c : Command) : Prop := okName c.name ∧ ∀ s, c.handler = .sub s → ∀ sub, s.subcommand = some sub → okName sub.name

theorem subTables_ok : ∀ t : SubTable, ∀ c ∈ t.all, okName c.name := by
  intro t; cases t <;> decide +kernel

theorem detectKind_mem {t : List SubCmd} {id : Byte} {p : Option SubCmd} {s : SubCmd} (h : detectKind t id p = some s) :
    s ∈ t ∨ p = some s := by
  unfold detectKind at h
  split at h
  · rename_i c hc
    simp only [Option.some.injEq] at h; subst h
    exact Or.inl (List.mem_of_find?_eq_some hc)
  · exact Or.inr h

theorem detectKindUseM_mem {t : List SubCmd} {m id : Byte} {p : Option SubCmd} {s : SubCmd}
    (h : detectKindUseM t m id p = some s) : s ∈ t ∨ p = some s := by
  unfold detectKindUseM at h
  induction t generalizing p with
  | nil => exact Or.inr h
  | cons c t ih =>
    rw [List.foldl_cons] at h
    rcases ih h with h1 | h1
    · exact Or.inl (List.mem_cons_of_mem _ h1)
    · repeat' split at h1
      all_goals first
        | exact Or.inr h1
        | (simp only [Option.some.injEq] at h1; subst h1; exact Or.inl (by simp))

theorem select_mem {s : SubState} {m id : Byte} {x : SubCmd} (h : s.select m id = some x) :
    x ∈ s.table.all ∨ s.subcommand = some x := by
  unfold SubState.select at h
  split at h
  · exact detectKindUseM_mem h
  · exact detectKind_mem h

theorem pushData_sub {s : SubState} {d b sub} (h : (s.pushData d b).1.subcommand = some sub) :
    ∃ x, s.subcommand = some x ∧ sub.name = x.name ∧ sub.id = x.id ∧ sub.kind = x.kind ∧ sub.commands = x.commands := by
  unfold SubState.pushData at h
  split at h
  · exact ⟨sub, h, rfl, rfl, rfl, rfl⟩
  · split at h
    · rename_i x hx
      simp only [Option.some.injEq] at h; subst h
      exact ⟨x, hx, rfl, rfl, rfl, rfl⟩
    · rename_i hx; rw [hx] at h; simp at h

/-- the selected sub-command always comes from the table -/
theorem sub_push_sub {s : SubState} {d b r} (h : s.push d b = .ok r) {sub} (hs : r.1.subcommand = some sub) :
    (∃ x ∈ s.table.all, sub.name = x.name ∧ sub.id = x.id ∧ sub.kind = x.kind) ∨
    ∃ x, s.subcommand = some x ∧ sub.name = x.name ∧ sub.id = x.id ∧ sub.kind = x.kind := by
  rcases sub_push_case h with ⟨_, _⟩ | ⟨_, _, _⟩ | ⟨_⟩
  · exact Or.inr ⟨sub, hs, rfl, rfl, rfl⟩
  · obtain ⟨x, h1, h2, h3, h4, _⟩ := pushData_sub hs
    simp only [SubState.parsed, Option.map_eq_some_iff] at h1
    obtain ⟨y, h5, h6⟩ := h1
    subst h6
    rcases select_mem h5 with h | h
    · exact Or.inl ⟨y, h, h2, h3, h4⟩
    · exact Or.inr ⟨y, h, h2, h3, h4⟩
  · obtain ⟨x, h1, h2, h3, h4, _⟩ := pushData_sub hs
    exact Or.inr ⟨x, h1, h2, h3, h4⟩

theorem push_handler_sub {c c' : Command} {b ok} (h : c.push b = .ok (c', ok)) {t : SubState} (ht : c'.handler = .sub t) :
    c.handler = .sub t ∨ ∃ s d ok', c.handler = .sub s ∧ s.push c.data b = .ok (t, d, ok') := by
  unfold Command.push at h
  have go : ∀ x : Rs (Handler × List Byte × Bool), x = c.handler.push c.data b →
      (do let (h, d, ok) ← x
          pure ({ c with handler := h, data := d }, ok)) = Except.ok (c', ok) →
      c.handler = .sub t ∨ ∃ s d ok', c.handler = .sub s ∧ s.push c.data b = .ok (t, d, ok') := by
    intro x hx hh
    rcases x with e | ⟨h', d', ok'⟩
    · simp [bind, Except.bind] at hh
    · simp only [bind, Except.bind, pure, Except.pure, Except.ok.injEq, Prod.mk.injEq] at hh
      have : h' = .sub t := by rw [← ht, ← hh.1]
      subst this
      have hc := handler_push_class hx.symm
      rcases hcc : c.handler with _ | _ | _ | _ | _ | _ | s <;> rw [hcc] at hc <;> simp [Handler.sameClass] at hc
      right
      rw [hcc] at hx
      refine ⟨s, d', ok', rfl, ?_⟩
      simp only [Handler.push, bind, Except.bind] at hx
      rcases hp : s.push c.data b with e | ⟨s', d'', ok''⟩
      · rw [hp] at hx; simp at hx
      · rw [hp] at hx
        simp only [pure, Except.pure, Except.ok.injEq, Prod.mk.injEq, Handler.sub.injEq] at hx
        rw [hx.1, hx.2.1, hx.2.2]
  split at h
  · exact go _ rfl h
  · exact go _ rfl h
  · simp [pure, Except.pure] at h; left; rw [← ht, ← h.1]
  · simp [pure, Except.pure] at h; left; rw [← ht, ← h.1]
  · split at h
    · split at h <;> simp [pure, Except.pure] at h <;> (left; rw [← ht, ← h.1])
    · simp [pure, Except.pure] at h; left; rw [← ht, ← h.1]

theorem nameOk_push {c c' : Command} {b ok} (hn : NameOk c) (h : c.push b = .ok (c', ok)) : NameOk c' := by
  refine ⟨by rw [(push_derived h).name]; exact hn.1, ?_⟩
  intro t ht sub hsub
  rcases push_handler_sub h ht with h1 | ⟨s, d, ok', h1, h2⟩
  · exact hn.2 t h1 sub hsub
  · rcases sub_push_sub h2 hsub with ⟨x, hx, e, _⟩ | ⟨x, hx, e, _⟩
    · rw [e]; exact subTables_ok _ x hx
    · rw [e]; exact hn.2 s h1 x hx

theorem table_names : ∀ c ∈ escPosCommands, okName c.name := by decide +kernel

theorem table_sub_none : ∀ c ∈ escPosCommands, c.handler.getSubcommand = none := by decide +kernel

theorem names_printable {bs cmds} (h : parseEscPos bs = .ok cmds) : ∀ c ∈ cmds, okName c.name := by
  refine parse_all (J := NameOk) (Q := fun c => okName c.name) ?_ ?_ ?_ ?_ ?_ ?_ (by decide) (by decide) (by decide) h
  · intro c hc
    refine ⟨table_names c hc, ?_⟩
    intro s hs sub hsub
    have := table_sub_none c hc
    rw [hs] at this; simp only [Handler.getSubcommand] at this; rw [this] at hsub; simp at hsub
  · exact ⟨by decide, by intro s hs; simp [textCmd] at hs⟩
  · exact ⟨by decide, by intro s hs; simp [unknownCmd] at hs⟩
  · intro c d h; exact h
  · intro c b c' ok h hp; exact nameOk_push h hp
  · intro c hc d hd
    unfold emitted at hd
    split at hd
    · split at hd
      · rename_i sub hs
        simp only [List.mem_singleton] at hd; subst hd
        simp only [SubCmd.toCommand]
        rcases hh : c.handler with _ | _ | _ | _ | _ | _ | s <;> rw [hh] at hs <;> simp [Handler.getSubcommand] at hs
        exact hc.2 s hh sub hs
      · simp at hd
    · simp only [List.mem_singleton] at hd; subst hd; exact hc.1

theorem names_ok {bs cmds} (h : parseEscPos bs = .ok cmds) : ∀ c ∈ cmds, '\n' ∉ c.name.toList := by
  intro c hc hn
  exact absurd (names_printable h c hc _ hn).1 (by decide)

end Thermal
