import Verif.Proofs.ParserOpen
/-
Running the parser over several items, and what happens afterwards.
-/
namespace Thermal
set_option linter.unusedSimpArgs false
open Spec

/-- the blank Unknown command that precedes a text run nothing was read before -/
def blankBefore (s : PS) (it : Item) : List Command :=
  if s.cur = none ∧ it.isText = true then [unknownCmd] else []

theorem item_run {s outs} (h : Closes s outs) {it : Item} (hw : it.WF) (ht : it.isText = true → s.isDef = false) :
    ∃ s', s.run it.bytes = .ok s' ∧ Closes s' (outs ++ blankBefore s it ++ it.commands) ∧
      s'.isDef = it.isText ∧ s'.cur ≠ none ∧
      s'.finish = outs ++ blankBefore s it ++ it.commandsAtEnd ++ [endPrintCmd] := by
  rcases hit : it.isText with _ | _
  · obtain ⟨base, hb, A, args, he, hr, hm, hf, h1, h2⟩ := readBy_of_wf hw hit
    obtain ⟨s', hs1, hs2, hs3, hs4, hs5⟩ := h.command hb A hr hm hf
    refine ⟨s', by rw [he]; exact hs1, ?_, hs3, hs4, ?_⟩
    · simpa [blankBefore, hit, h1] using hs2
    · simpa [blankBefore, hit, h2] using hs5
  · cases it with
    | text t =>
      obtain ⟨hne, hpl⟩ := hw
      have hbt : (Item.text t).bytes = t := rfl
      rw [hbt]
      refine ⟨_, h.text (ht hit) hne hpl, ?_, rfl, by simp [PS.inText], ?_⟩
      · refine .default rfl rfl _ rfl (.inl rfl) (by simp [textCmd]) ?_
        simp [PS.inText, blankBefore, Item.isText, Item.commands]
      · simp [PS.finish, PS.inText, blankBefore, Item.isText, Item.commandsAtEnd, Item.commands, emittedOpt,
          emitted, textCmd]
    | _ => simp [Item.isText] at hit

/-- the blank command of a whole stream -/
def blankLead (s : PS) (items : List Item) : List Command := if s.cur = none then leading items else []

theorem items_run (items : List Item) : ∀ {s outs}, Closes s outs → (∀ it ∈ items, it.WF) → separated items →
    (∀ it ∈ items.head?, it.isText = true → s.isDef = false) →
    ∃ s', s.run (streamBytes items) = .ok s' ∧ Closes s' (outs ++ blankLead s items ++ items.flatMap Item.commands) ∧
      (∀ it ∈ items.getLast?, s'.isDef = it.isText) ∧ (items ≠ [] → s'.cur ≠ none) ∧
      (items ≠ [] → s'.finish = outs ++ blankLead s items ++ streamCommands items ++ [endPrintCmd]) ∧
      (items = [] → s' = s) := by
  induction items with
  | nil =>
    intro s outs h _ _ _
    exact ⟨s, rfl, by simpa [blankLead, leading] using h, by simp, by simp, by simp, fun _ => rfl⟩
  | cons it rest ih =>
    intro s outs h hw hsep hhead
    obtain ⟨s1, h1, h2, h3, h4, h5⟩ := item_run h (hw it (by simp)) (hhead it (by simp))
    have hbl : blankBefore s it = blankLead s (it :: rest) := by
      simp only [blankBefore, blankLead, leading]
      by_cases hc : s.cur = none <;> simp [hc]
    rcases rest with _ | ⟨it2, rest⟩
    · refine ⟨s1, by simpa [streamBytes] using h1, by simpa [← hbl] using h2, by simp [h3], fun _ => h4,
        fun _ => by simpa [← hbl, streamCommands] using h5, by simp⟩
    · have hs2 : separated (it2 :: rest) := hsep.2
      obtain ⟨s2, g1, g2, g3, g4, g5, _⟩ := ih h2 (fun i hi => hw i (List.mem_cons_of_mem _ hi)) hs2
        (by
          intro i hi hti
          simp only [List.head?_cons, Option.mem_def, Option.some.injEq] at hi
          subst hi
          rw [h3]
          rcases hx : it.isText with _ | _
          · rfl
          · exact absurd ⟨hx, hti⟩ hsep.1)
      have hb2 : blankLead s1 (it2 :: rest) = [] := by simp [blankLead, h4]
      refine ⟨s2, ?_, ?_, ?_, fun _ => g4 (by simp), fun _ => ?_, by simp⟩
      · simp only [streamBytes, List.flatMap_cons]
        rw [PS.run_append, h1]
        simpa [Except.bind, streamBytes] using g1
      · simpa [hb2, ← hbl] using g2
      · simpa using g3
      · rw [g5 (by simp)]
        simp [hb2, ← hbl, streamCommands]

theorem init_closes : Closes PS.init [beginPrintCmd] := .start rfl rfl rfl rfl

/-! ### Nothing after a complete item changes it -/

/-- `outs` has been handed out, or will be as soon as the pending opcode bytes are resolved. -/
def Sealed (s : PS) (outs : List Command) : Prop :=
  outs <+: s.out ∨ (s.pend ≠ [] ∧ (s.isDef = false ∨ isLead s.pend = true) ∧ s.out ++ emittedOpt s.cur = outs)

theorem emitted_sub_orUnknown (c : Option Command) : emittedOpt c <+: emittedOrUnknown c := by
  cases c <;> simp [emittedOpt, emittedOrUnknown]

theorem isLead_append {p : List Byte} (hne : p ≠ []) (b : Byte) : isLead (p ++ [b]) = isLead p := by
  rcases p with _ | ⟨x, xs⟩
  · exact absurd rfl hne
  · simp [isLead, CommandSet.leads]

theorem sealed_search {s : PS} {b s' outs} (h : (s.pend = [] ∧ s.isDef = false ∧ s.out ++ emittedOpt s.cur = outs) ∨
    Sealed s outs) (hs : SearchCase s b s') : Sealed s' outs := by
  rcases h with ⟨hp, hd, ho⟩ | h | ⟨hp, hd, ho⟩
  · cases hs with
    | complete c hl => left; simp [ho]
    | part hl => right; exact ⟨by simp, .inl hd, ho⟩
    | lead hl hL => left; rw [← ho]; simp [emitted_sub_orUnknown]
    | append hl hL hd' => rw [hd] at hd'; simp at hd'
    | text hl hL hd' => left; rw [← ho]; simp [emitted_sub_orUnknown]
  · left; exact h.trans (search_out_prefix hs)
  · cases hs with
    | complete c hl => left; simp [ho]
    | part hl =>
      right
      refine ⟨by simp, ?_, ho⟩
      rcases hd with hd | hd
      · exact .inl hd
      · exact .inr (by rw [isLead_append hp]; exact hd)
    | lead hl hL => left; rw [← ho]; simp [emitted_sub_orUnknown]
    | append hl hL hd' =>
      rw [isLead_append hp] at hL
      rcases hd with hd | hd
      · rw [hd] at hd'; simp at hd'
      · rw [hd] at hL; simp at hL
    | text hl hL hd' => left; rw [← ho]; simp [emitted_sub_orUnknown]

theorem sealed_step {s : PS} {b s' outs} (h : Sealed s outs) (hs : s.step b = .ok s') : Sealed s' outs := by
  cases step_case hs with
  | push c c' hp hd hc hpu =>
    rcases h with h | ⟨hp', _⟩
    · exact .inl h
    · exact absurd hp hp'
  | reject c c' hp hd hc hpu s' hsc =>
    rcases h with h | ⟨hp', _⟩
    · left; exact h.trans (search_out_prefix (s := { s with cur := some c' }) hsc)
    · exact absurd hp hp'
  | search hns s' hsc => exact sealed_search (.inr h) hsc

theorem sealed_run {s : PS} {bs s' outs} (h : Sealed s outs) (hs : s.run bs = .ok s') : Sealed s' outs := by
  induction bs generalizing s with
  | nil => simp only [PS.run, pure, Except.pure, Except.ok.injEq] at hs; subst hs; exact h
  | cons b bs ih =>
    simp only [PS.run, bind, Except.bind] at hs
    split at hs
    · simp at hs
    · rename_i u hu; exact ih (sealed_step h hu) hs

theorem sealed_finish {s : PS} {outs} (h : Sealed s outs) : outs <+: s.finish := by
  rcases h with h | ⟨_, _, h⟩
  · exact h.trans (by simp [PS.finish])
  · rw [← h]; simp [PS.finish]

/-! ### What follows is read the same way whatever came before -/

/-- the two states go on identically; `p1`, `p2` is what they have handed out before -/
inductive Sim (p1 p2 : List Command) (s1 s2 : PS) : Prop where
  | pending (hp : s1.pend = s2.pend) (hne : s1.pend ≠ []) (hd1 : s1.isDef = false) (hd2 : s2.isDef = false)
      (hc1 : s1.cur ≠ none) (hc2 : s2.cur ≠ none)
      (h1 : s1.out ++ emittedOpt s1.cur = p1) (h2 : s2.out ++ emittedOpt s2.cur = p2)
  | same (hp : s1.pend = s2.pend) (hd : s1.isDef = s2.isDef) (hc : s1.cur = s2.cur) (o)
      (h1 : s1.out = p1 ++ o) (h2 : s2.out = p2 ++ o)

theorem orUnknown_some {c : Option Command} (h : c ≠ none) : emittedOrUnknown c = emittedOpt c := by
  cases c with
  | none => exact absurd rfl h
  | some c => rfl

theorem sim_search_pending {p1 p2 : List Command} {s1 s2 : PS} (hp : s1.pend = s2.pend) (hd1 : s1.isDef = false) (hd2 : s2.isDef = false)
    (hc1 : s1.cur ≠ none) (hc2 : s2.cur ≠ none)
    (h1 : s1.out ++ emittedOpt s1.cur = p1) (h2 : s2.out ++ emittedOpt s2.cur = p2) (b : Byte) :
    Sim p1 p2 (s1.search b) (s2.search b) := by
  unfold PS.search
  dsimp only
  rw [← hp]
  rcases look (s1.pend ++ [b]) with c | _ | _
  · exact .same rfl rfl rfl [] (by simp [h1]) (by simp [h2])
  · exact .pending rfl (by simp) hd1 hd2 hc1 hc2 h1 h2
  · dsimp only
    rw [hd1, hd2, orUnknown_some hc1, orUnknown_some hc2]
    split
    · exact .same rfl rfl rfl [] (by simp [h1]) (by simp [h2])
    · simp only [Bool.false_eq_true, if_false]
      exact .same rfl rfl rfl [] (by simp [h1]) (by simp [h2])

theorem sim_search_same {p1 p2 : List Command} {s1 s2 : PS} (hp : s1.pend = s2.pend) (hd : s1.isDef = s2.isDef)
    (hc : s1.cur = s2.cur) (o) (h1 : s1.out = p1 ++ o) (h2 : s2.out = p2 ++ o) (b : Byte) :
    Sim p1 p2 (s1.search b) (s2.search b) := by
  unfold PS.search
  dsimp only
  rw [← hp, ← hd, ← hc, h1, h2]
  rcases look (s1.pend ++ [b]) with c | _ | _
  · exact .same rfl rfl rfl (o ++ emittedOpt s1.cur) (by simp) (by simp)
  · exact .same rfl rfl rfl o rfl rfl
  · dsimp only
    split
    · exact .same rfl rfl rfl (o ++ emittedOrUnknown s1.cur) (by simp) (by simp)
    · split
      · exact .same rfl rfl rfl o rfl rfl
      · exact .same rfl rfl rfl (o ++ emittedOrUnknown s1.cur) (by simp) (by simp)

theorem sim_step {p1 p2 s1 s2} (h : Sim p1 p2 s1 s2) (b : Byte) :
    (∃ e, s1.step b = .error e ∧ s2.step b = .error e) ∨
    (∃ t1 t2, s1.step b = .ok t1 ∧ s2.step b = .ok t2 ∧ Sim p1 p2 t1 t2) := by
  cases h with
  | pending hp hne hd1 hd2 hc1 hc2 h1 h2 =>
    right
    refine ⟨s1.search b, s2.search b, ?_, ?_, sim_search_pending hp hd1 hd2 hc1 hc2 h1 h2 b⟩
    · unfold PS.step; split
      · rename_i h _ _; exact absurd h hne
      · rfl
    · unfold PS.step; split
      · rename_i h _ _; exact absurd h (hp ▸ hne)
      · rfl
  | same hp hd hc o h1 h2 =>
    by_cases hx : s1.pend = [] ∧ s1.isDef = false ∧ s1.cur ≠ none
    · obtain ⟨x1, x2, x3⟩ := hx
      obtain ⟨c, hcc⟩ := Option.ne_none_iff_exists'.1 x3
      have e1 : s1.step b = (c.push b).bind (fun (c, ok) => if ok then .ok { s1 with cur := some c } else
          .ok (PS.search { s1 with cur := some c } b)) := by
        simp only [PS.step, x1, x2, hcc]; rfl
      have e2 : s2.step b = (c.push b).bind (fun (c, ok) => if ok then .ok { s2 with cur := some c } else
          .ok (PS.search { s2 with cur := some c } b)) := by
        simp only [PS.step, ← hp, ← hd, ← hc, x1, x2, hcc]; rfl
      rw [e1, e2]
      rcases c.push b with e | ⟨c', ok⟩
      · left; exact ⟨e, rfl, rfl⟩
      · right
        cases ok
        · exact ⟨_, _, rfl, rfl, sim_search_same (s1 := { s1 with cur := some c' }) (s2 := { s2 with cur := some c' })
            hp hd rfl o h1 h2 b⟩
        · exact ⟨_, _, rfl, rfl, .same hp hd rfl o h1 h2⟩
    · right
      refine ⟨s1.search b, s2.search b, ?_, ?_, sim_search_same hp hd hc o h1 h2 b⟩
      · unfold PS.step; split
        · rename_i a b' c'; exact absurd ⟨a, b', by simp [c']⟩ hx
        · rfl
      · unfold PS.step; split
        · rename_i a b' c'; exact absurd ⟨hp ▸ a, hd ▸ b', by simp [hc, c']⟩ hx
        · rfl

theorem sim_run {p1 p2} (bs : List Byte) : ∀ {s1 s2}, Sim p1 p2 s1 s2 →
    (∃ e, s1.run bs = .error e ∧ s2.run bs = .error e) ∨
    (∃ t1 t2, s1.run bs = .ok t1 ∧ s2.run bs = .ok t2 ∧ Sim p1 p2 t1 t2) := by
  induction bs with
  | nil => intro s1 s2 h; right; exact ⟨s1, s2, rfl, rfl, h⟩
  | cons b bs ih =>
    intro s1 s2 h
    rcases sim_step h b with ⟨e, h1, h2⟩ | ⟨t1, t2, h1, h2, h3⟩
    · left; exact ⟨e, by simp [PS.run, h1, bind, Except.bind], by simp [PS.run, h2, bind, Except.bind]⟩
    · simpa [PS.run, h1, h2, bind, Except.bind] using ih h3

theorem sim_finish {p1 p2 s1 s2} (h : Sim p1 p2 s1 s2) : ∃ tail, s1.finish = p1 ++ tail ∧ s2.finish = p2 ++ tail := by
  cases h with
  | pending hp hne hd1 hd2 hc1 hc2 h1 h2 => exact ⟨[endPrintCmd], by simp [PS.finish, ← h1], by simp [PS.finish, ← h2]⟩
  | same hp hd hc o h1 h2 =>
    exact ⟨o ++ emittedOpt s1.cur ++ [endPrintCmd], by simp [PS.finish, h1], by simp [PS.finish, h2, hc]⟩

/-- the state after a complete, empty command with nothing handed out yet -/
def canonState : PS :=
  { cur := some initializeCmd
    isDef := false
    pend := []
    out := [] }

/-- What is returned for the bytes after a complete command. -/
def tailOf (rest : List Byte) : Rs (List Command) := (canonState.run rest).map (fun s => s.finish.drop 1)

theorem canon_closes : Closes canonState [initializeCmd] :=
  .full rfl rfl initializeCmd initializeCmd rfl (fun _ => rfl) (by simp [canonState, emitted, initializeCmd])

theorem closes_first {s outs} (h : Closes s outs) (b : Byte) (hd : s.isDef = false) (hc : s.cur ≠ none) :
    Sim outs [initializeCmd] (Except.toOption (s.step b) |>.getD s) (Except.toOption (canonState.step b) |>.getD s) ∧
    (∃ t, s.step b = .ok t) ∧ (∃ t, canonState.step b = .ok t) := by
  obtain ⟨t1, a1, a2, a3, a4, a5, _⟩ := h.step b
  obtain ⟨t2, b1, b2, b3, b4, b5, _⟩ := canon_closes.step b
  rw [a1, b1]
  refine ⟨?_, ⟨_, rfl⟩, ⟨_, rfl⟩⟩
  simp only [Except.toOption, Option.getD_some]
  exact sim_search_pending (by rw [a2, b2]) (by rw [a3, hd]) (by rw [b3]; rfl) (fun h => hc (a5.2 h))
    (fun h => by have := b5.2 h; simp [canonState] at this) a4 b4 b

/-- After a complete command the rest of the input is read independently of everything before it. -/
theorem closes_tail {s outs} (h : Closes s outs) (hd : s.isDef = false) (hc : s.cur ≠ none) (rest : List Byte)
    (hne : rest ≠ []) : (s.run rest).map PS.finish = (tailOf rest).map (fun tl => outs ++ tl) := by
  rcases rest with _ | ⟨b, rest⟩
  · exact absurd rfl hne
  · obtain ⟨hs, ⟨u1, e1⟩, ⟨u2, e2⟩⟩ := closes_first h b hd hc
    rw [e1, e2] at hs
    simp only [Except.toOption, Option.getD_some] at hs
    simp only [tailOf, PS.run, e1, e2, bind, Except.bind]
    rcases sim_run rest hs with ⟨e, h1, h2⟩ | ⟨t1, t2, h1, h2, h3⟩
    · simp [h1, h2, Except.map]
    · obtain ⟨tl, g1, g2⟩ := sim_finish h3
      simp [h1, h2, Except.map, g1, g2]

end Thermal
