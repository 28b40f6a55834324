import Verif.Proofs.ParserAbs
/-
Case analysis and induction principles for the small parser formulation.
-/
namespace Thermal
set_option linter.unusedSimpArgs false

theorem PS.run_append (s : PS) (xs ys : List Byte) :
    s.run (xs ++ ys) = (s.run xs).bind (fun t => t.run ys) := by
  induction xs generalizing s with
  | nil => rfl
  | cons x xs ih =>
    simp only [List.cons_append, PS.run, bind]
    rcases s.step x with e | t
    · rfl
    · simp only [Except.bind]; exact ih t

/-- Snoc induction over a successful run. -/
theorem PS.run_induct (P : List Byte → PS → Prop) {s0 : PS} (h0 : P [] s0)
    (hstep : ∀ xs s b s', s0.run xs = .ok s → P xs s → s.step b = .ok s' → P (xs ++ [b]) s') :
    ∀ bs s, s0.run bs = .ok s → P bs s := by
  suffices h : ∀ bs pre s, s0.run pre = .ok s → P pre s → ∀ t, s.run bs = .ok t → P (pre ++ bs) t by
    intro bs s hs
    have := h bs [] s0 rfl h0 s hs
    simpa using this
  intro bs
  induction bs with
  | nil =>
    intro pre s hr hp t ht
    simp only [PS.run, pure, Except.pure, Except.ok.injEq] at ht
    subst ht; simpa using hp
  | cons b bs ih =>
    intro pre s hr hp t ht
    simp only [PS.run, bind] at ht
    rcases hb : s.step b with e | u
    · rw [hb] at ht; simp [Except.bind] at ht
    · rw [hb] at ht; simp only [Except.bind] at ht
      have h1 : s0.run (pre ++ [b]) = .ok u := by
        rw [PS.run_append, hr]; simp [Except.bind, PS.run, hb, bind, pure, Except.pure]
      have := ih (pre ++ [b]) u h1 (hstep pre s b u hr hp hb) t ht
      simpa using this

/-- The four outcomes of a search. -/
inductive SearchCase (s : PS) (b : Byte) : PS → Prop where
  | complete (c : Command) (hl : look (s.pend ++ [b]) = .complete c) :
      SearchCase s b { cur := some c, isDef := false, pend := [], out := s.out ++ emittedOpt s.cur }
  | part (hl : look (s.pend ++ [b]) = .part) : SearchCase s b { s with pend := s.pend ++ [b] }
  | lead (hl : look (s.pend ++ [b]) = .nomatch) (hlead : isLead (s.pend ++ [b]) = true) :
      SearchCase s b { cur := some { unknownCmd with data := s.pend ++ [b] }, isDef := true, pend := [],
                       out := s.out ++ emittedOrUnknown s.cur }
  | append (hl : look (s.pend ++ [b]) = .nomatch) (hlead : isLead (s.pend ++ [b]) = false)
      (hd : s.isDef = true) :
      SearchCase s b { s with cur := s.cur.map (fun c => { c with data := c.data ++ [b] }), pend := [] }
  | text (hl : look (s.pend ++ [b]) = .nomatch) (hlead : isLead (s.pend ++ [b]) = false)
      (hd : s.isDef = false) :
      SearchCase s b { cur := some { textCmd with data := [b] }, isDef := true, pend := [],
                       out := s.out ++ emittedOrUnknown s.cur }

theorem search_case (s : PS) (b : Byte) : SearchCase s b (s.search b) := by
  unfold PS.search
  dsimp only
  rcases hl : look (s.pend ++ [b]) with c | _ | _
  · exact .complete c hl
  · exact .part hl
  · dsimp only
    by_cases hL : isLead (s.pend ++ [b]) = true
    · rw [if_pos hL]; exact .lead hl hL
    · rw [if_neg hL]
      simp only [Bool.not_eq_true] at hL
      by_cases hd : s.isDef = true
      · rw [if_pos hd]; exact .append hl hL hd
      · rw [if_neg hd]
        simp only [Bool.not_eq_true] at hd
        exact .text hl hL hd

/-- The outcomes of one step. -/
inductive StepCase (s : PS) (b : Byte) : PS → Prop where
  | push (c c' : Command) (hp : s.pend = []) (hd : s.isDef = false) (hc : s.cur = some c)
      (hpu : c.push b = .ok (c', true)) : StepCase s b { s with cur := some c' }
  | reject (c c' : Command) (hp : s.pend = []) (hd : s.isDef = false) (hc : s.cur = some c)
      (hpu : c.push b = .ok (c', false)) (s') (hs : SearchCase { s with cur := some c' } b s') :
      StepCase s b s'
  | search (hns : ¬ (s.pend = [] ∧ s.isDef = false ∧ s.cur ≠ none)) (s') (hs : SearchCase s b s') :
      StepCase s b s'

theorem step_case {s : PS} {b : Byte} {s' : PS} (h : s.step b = .ok s') : StepCase s b s' := by
  unfold PS.step at h
  split at h
  · rename_i c hp hd hc
    simp only [bind, Except.bind] at h
    split at h
    · simp at h
    · rename_i v hpu
      obtain ⟨c', ok⟩ := v
      cases ok
      · simp only [pure, Except.pure, Except.ok.injEq, Bool.false_eq_true, if_false] at h
        subst h
        exact .reject c c' hp hd hc hpu _ (search_case _ _)
      · simp only [pure, Except.pure, Except.ok.injEq, if_true] at h
        subst h
        exact .push c c' hp hd hc hpu
  · rename_i hns
    simp only [pure, Except.pure, Except.ok.injEq] at h
    subst h
    refine .search ?_ _ (search_case _ _)
    rintro ⟨h1, h2, h3⟩
    rcases hc : s.cur with _ | c
    · exact h3 hc
    · exact hns c h1 h2 hc

theorem look_complete {buf c} (h : look buf = .complete c) : c ∈ escPosCommands ∧ c.commands = buf := by
  unfold look at h
  split at h
  · rename_i d hd
    simp only [Look.complete.injEq] at h
    subst h
    exact ⟨List.mem_of_find?_eq_some hd, by simpa using List.find?_some hd⟩
  · split at h <;> simp at h

theorem look_part {buf} (h : look buf = .part) :
    ∃ c ∈ escPosCommands, buf <+: c.commands ∧ c.commands ≠ buf := by
  unfold look at h
  split at h
  · simp at h
  · rename_i hn
    split at h
    · rename_i ha
      rw [List.any_eq_true] at ha
      obtain ⟨c, hc, hp⟩ := ha
      refine ⟨c, hc, List.isPrefixOf_iff_prefix.1 hp, ?_⟩
      intro he
      rw [List.find?_eq_none] at hn
      exact hn c hc (by simpa using he)
    · simp at h

theorem look_opcode {c} (hc : c ∈ escPosCommands) : look c.commands = .complete c := by
  have key : ∀ c ∈ escPosCommands, escPosCommands.find? (fun d => d.commands == c.commands) = some c := by
    decide +kernel
  simp [look, key c hc]

theorem table_proper_prefix : ∀ c ∈ escPosCommands, ∀ i < c.commands.length,
    escPosCommands.find? (fun d => d.commands == c.commands.take i) = none := by decide +kernel

theorem look_prefix {c} (hc : c ∈ escPosCommands) {buf} (hp : buf <+: c.commands)
    (hn : buf ≠ c.commands) : look buf = .part := by
  have hlt : buf.length < c.commands.length := by
    have h1 := hp.length_le
    rcases Nat.lt_or_ge buf.length c.commands.length with h | h
    · exact h
    · exact absurd (hp.eq_of_length (by omega)) hn
  have h1 := table_proper_prefix c hc buf.length hlt
  rw [← List.prefix_iff_eq_take.1 hp] at h1
  have h2 : escPosCommands.any (fun c => buf.isPrefixOf c.commands) = true := by
    rw [List.any_eq_true]; exact ⟨c, hc, List.isPrefixOf_iff_prefix.2 hp⟩
  simp [look, h1, h2]

end Thermal
