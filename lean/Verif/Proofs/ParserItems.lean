import Verif.Props.ParserBasic
import Verif.Proofs.SubLookup
import Verif.Spec.Stream
/-
Running the parser over one item.
-/
namespace Thermal
set_option linter.unusedSimpArgs false

/-- `s` is at an item boundary and would hand out `outs` (everything so far, the open command in its closed
form) as soon as another item starts. -/
inductive Closes (s : PS) (outs : List Command) : Prop where
  | start (hp : s.pend = []) (hc : s.cur = none) (hd : s.isDef = false) (ho : outs = s.out)
  | default (hp : s.pend = []) (hd : s.isDef = true) (c) (hc : s.cur = some c) (hk : DefCmd c)
      (hn : c.kind ≠ .subcommand) (ho : outs = s.out ++ [c])
  | full (hp : s.pend = []) (hd : s.isDef = false) (c c') (hc : s.cur = some c)
      (hpu : ∀ b, c.push b = .ok (c', false)) (ho : outs = s.out ++ emitted c')

theorem Closes.pend {s outs} (h : Closes s outs) : s.pend = [] := by cases h <;> assumption

theorem emitted_plain {c : Command} (h : c.kind ≠ .subcommand) : emitted c = [c] := by
  simp [emitted, h]

/-- what a boundary state does with the next byte -/
theorem Closes.step {s outs} (h : Closes s outs) (b : Byte) :
    ∃ t : PS, s.step b = .ok (t.search b) ∧ t.pend = [] ∧ t.isDef = s.isDef ∧
      t.out ++ emittedOpt t.cur = outs ∧ (s.cur = none ↔ t.cur = none) ∧ (s.isDef = true → t = s) := by
  cases h with
  | start hp hc hd ho =>
    refine ⟨s, ?_, hp, rfl, by simp [hc, emittedOpt, ho], Iff.rfl, fun _ => rfl⟩
    simp [PS.step, hp, hc, hd, pure, Except.pure]
  | default hp hd c hc hk hn ho =>
    refine ⟨s, ?_, hp, rfl, by simp [hc, emittedOpt, ho, emitted_plain hn], Iff.rfl, fun _ => rfl⟩
    simp [PS.step, hp, hc, hd, pure, Except.pure]
  | full hp hd c c' hc hpu ho =>
    refine ⟨{ s with cur := some c' }, ?_, hp, rfl, by simp [emittedOpt, ho], by simp [hc], by simp [hd]⟩
    simp [PS.step, hp, hc, hd, pure, Except.pure, hpu, bind, Except.bind]

/-- Reading an opcode at a boundary. -/
theorem Closes.opcode {s outs} (h : Closes s outs) {c : Command} (hc : c ∈ escPosCommands) :
    s.run c.commands = .ok { cur := some c, isDef := false, pend := [], out := outs } := by
  obtain ⟨b, post, he⟩ : ∃ b post, c.commands = b :: post := by
    rcases hcc : c.commands with _ | ⟨b, post⟩
    · exact absurd hcc (C05_table_unambiguous.2 c hc)
    · exact ⟨b, post, rfl⟩
  obtain ⟨t, h1, h2, _, h4, _⟩ := h.step b
  rw [he]
  simp only [PS.run, h1, bind, Except.bind]
  rw [opcode_search hc t h2 he, h4]

theorem auto_run {base : Command} (A : Auto base) {out : List Command} (args : List Byte) (hr : Reach A.more args) :
    PS.run { cur := some base, isDef := false, pend := [], out := out } args =
      .ok { cur := some (A.after args), isDef := false, pend := [], out := out } := by
  suffices h : ∀ done rest, Reach A.more (done ++ rest) →
      PS.run { cur := some (A.after done), isDef := false, pend := [], out := out } rest =
      .ok { cur := some (A.after (done ++ rest)), isDef := false, pend := [], out := out } by
    have := h [] args (by simpa using hr)
    simpa [A.init] using this
  intro done rest
  induction rest generalizing done with
  | nil => intro _; simp [PS.run, pure, Except.pure]
  | cons b rest ih =>
    intro hr
    have hr1 : Reach A.more (done ++ [b]) := by
      intro p c hp
      exact hr p c (hp.trans ⟨rest, by simp⟩)
    obtain ⟨h1, h2⟩ := hr1.of_snoc
    have hpu := A.push_more done b h1 h2
    have hst : PS.step { cur := some (A.after done), isDef := false, pend := [], out := out } b =
        .ok { cur := some (A.after (done ++ [b])), isDef := false, pend := [], out := out } := by
      simp [PS.step, hpu, bind, Except.bind, pure, Except.pure]
    simp only [PS.run, hst, bind, Except.bind]
    have := ih (done ++ [b]) (by simpa using hr)
    simpa using this

/-- Reading a complete non-text item at a boundary leaves a boundary. -/
theorem Closes.command {s outs} (h : Closes s outs) {base : Command} (hb : base ∈ escPosCommands) (A : Auto base)
    {args : List Byte} (hr : Reach A.more args) (hm : ¬ A.more args) (hf : ¬ A.fails args) :
    ∃ s', s.run (base.commands ++ args) = .ok s' ∧ Closes s' (outs ++ emitted (A.closed args)) ∧
      s'.isDef = false ∧ s'.cur ≠ none ∧ s'.finish = outs ++ emitted (A.after args) ++ [endPrintCmd] := by
  refine ⟨{ cur := some (A.after args), isDef := false, pend := [], out := outs }, ?_, ?_, rfl, by simp, ?_⟩
  · rw [PS.run_append, h.opcode hb]
    simp only [Except.bind]
    exact auto_run A args hr
  · exact .full rfl rfl _ (A.closed args) rfl (fun b => A.push_done args b hr hm hf) rfl
  · simp [PS.finish, emittedOpt]

/-! ### Text -/

theorem look_plain {b : Byte} (h : Spec.opener b = false) : look [b] = .nomatch ∧ isLead [b] = false := by
  have key : ∀ n < 256, Spec.opener (UInt8.ofNat n) = false →
      (escPosCommands.find? (fun c => c.commands == [UInt8.ofNat n]) = none ∧
       escPosCommands.any (fun c => [UInt8.ofNat n].isPrefixOf c.commands) = false) ∧
      isLead [UInt8.ofNat n] = false := by decide +kernel
  have := byte_all (P := fun b => Spec.opener b = false →
      (escPosCommands.find? (fun c => c.commands == [b]) = none ∧
       escPosCommands.any (fun c => [b].isPrefixOf c.commands) = false) ∧ isLead [b] = false) key b h
  exact ⟨by simp [look, this.1.1, this.1.2], this.2⟩

theorem text_more {s : PS} {c : Command} (hp : s.pend = []) (hd : s.isDef = true) (hc : s.cur = some c)
    (t : List Byte) (ht : ∀ b ∈ t, Spec.opener b = false) :
    s.run t = .ok { s with cur := some { c with data := c.data ++ t } } := by
  induction t generalizing s c with
  | nil => simp [PS.run, pure, Except.pure, ← hc]
  | cons b t ih =>
    obtain ⟨h1, h2⟩ := look_plain (ht b (by simp))
    have hst : s.step b = .ok { s with cur := some { c with data := c.data ++ [b] } } := by
      simp [PS.step, hp, hd, pure, Except.pure, PS.search, h1, h2, hc]
    simp only [PS.run, hst, bind, Except.bind]
    rw [ih (by simp [hp]) (by simp [hd]) rfl (fun b hb => ht b (by simp [hb]))]
    simp

/-- the state inside a text run -/
def PS.inText (t : List Byte) (out : List Command) : PS :=
  { cur := some { textCmd with data := t }, isDef := true, pend := [], out := out }

/-- Reading a text run at a boundary that is not itself a text run. -/
theorem Closes.text {s outs} (h : Closes s outs) (hd : s.isDef = false) {t : List Byte} (hne : t ≠ [])
    (ht : ∀ b ∈ t, Spec.opener b = false) :
    s.run t = .ok (PS.inText t (outs ++ (if s.cur = none then [unknownCmd] else []))) := by
  rcases t with _ | ⟨b, t⟩
  · exact absurd rfl hne
  · obtain ⟨h1, h2⟩ := look_plain (ht b (by simp))
    obtain ⟨u, hu1, hu2, hu3, hu4, hu5, _⟩ := h.step b
    have hs : u.search b = PS.inText [b] (outs ++ (if s.cur = none then [unknownCmd] else [])) := by
      simp only [PS.inText, PS.search, hu2, List.nil_append, h1, h2, hu3, hd]
      simp only [Bool.false_eq_true, if_false, PS.mk.injEq, and_true, true_and]
      rw [← hu4]
      rcases hc : u.cur with _ | c
      · rw [if_pos (hu5.2 hc)]; simp [emittedOrUnknown, emittedOpt]
      · rw [if_neg (by rw [hu5, hc]; simp)]; simp [emittedOrUnknown, emittedOpt]
    simp only [PS.run, hu1, bind, Except.bind, hs]
    rw [text_more (c := { textCmd with data := [b] }) rfl rfl rfl t (fun b hb => ht b (by simp [hb]))]
    simp [PS.inText]

end Thermal
