import Verif.Model.Parser
/-
An equivalent, smaller formulation of the parser: the triple (match_depth, command_matches,
command_buffer) is replaced by the pending opcode bytes, and the filtering of candidate lists by a table
lookup.  `parseEscPos_eq` shows it computes exactly what the model of parser.rs computes.
-/
namespace Thermal
set_option linter.unusedSimpArgs false

inductive Look where
  | complete (c : Command)
  | part
  | nomatch
  deriving DecidableEq

/-- lookup of a (partial) opcode in the ESC/POS table -/
def look (buf : List Byte) : Look :=
  match escPosCommands.find? (fun c => c.commands == buf) with
  | some c => .complete c
  | none => if escPosCommands.any (fun c => buf.isPrefixOf c.commands) then .part else .nomatch

structure PS where
  cur : Option Command := none
  isDef : Bool := false
  pend : List Byte := []
  out : List Command := []

def emittedOpt : Option Command → List Command
  | some c => emitted c
  | none => []

/-- what is emitted when an unknown/text command replaces the current one -/
def emittedOrUnknown : Option Command → List Command
  | some c => emitted c
  | none => [unknownCmd]

def isLead (buf : List Byte) : Bool := escPos.leads buf

def PS.search (s : PS) (b : Byte) : PS :=
  let buf := s.pend ++ [b]
  match look buf with
  | .complete c => { cur := some c, isDef := false, pend := [], out := s.out ++ emittedOpt s.cur }
  | .part => { s with pend := buf }
  | .nomatch =>
    if isLead buf then
      { cur := some { unknownCmd with data := buf }, isDef := true, pend := [],
        out := s.out ++ emittedOrUnknown s.cur }
    else if s.isDef then
      { s with cur := s.cur.map (fun c => { c with data := c.data ++ [b] }), pend := [] }
    else
      { cur := some { textCmd with data := [b] }, isDef := true, pend := [],
        out := s.out ++ emittedOrUnknown s.cur }

def PS.step (s : PS) (b : Byte) : Rs PS :=
  match s.pend, s.isDef, s.cur with
  | [], false, some c => do
      let (c, ok) ← c.push b
      if ok then pure { s with cur := some c } else pure (PS.search { s with cur := some c } b)
  | _, _, _ => pure (s.search b)

def PS.run (s : PS) : List Byte → Rs PS
  | [] => pure s
  | b :: bs => do let s ← s.step b; s.run bs

def PS.init : PS := { out := [beginPrintCmd] }

def PS.finish (s : PS) : List Command := s.out ++ emittedOpt s.cur ++ [endPrintCmd]

/-! ### Facts about the table -/

theorem table_prefixFree :
    escPosCommands.Pairwise (fun a b => a.commands.isPrefixOf b.commands = false ∧
      b.commands.isPrefixOf a.commands = false) := by decide +kernel

theorem table_lengths : ∀ c ∈ escPosCommands, 1 ≤ c.commands.length ∧ c.commands.length ≤ 3 := by
  decide +kernel

theorem isPrefixOf_append_iff (l m : List Byte) (b : Byte) :
    (l ++ [b]).isPrefixOf m = (l.isPrefixOf m && (m[l.length]? == some b)) := by
  induction l generalizing m with
  | nil =>
    cases m with
    | nil => simp [List.isPrefixOf]
    | cons x m => simp [List.isPrefixOf, Bool.beq_comm]
  | cons a l ih =>
    cases m with
    | nil => simp [List.isPrefixOf]
    | cons x m => simp [List.isPrefixOf, ih, Bool.and_assoc]

theorem filter_filter_prefix (t : List Command) (l : List Byte) (b : Byte) :
    (t.filter (fun c => l.isPrefixOf c.commands)).filter (fun c => c.commands[l.length]? == some b)
      = t.filter (fun c => (l ++ [b]).isPrefixOf c.commands) := by
  rw [List.filter_filter]
  congr 1
  funext c
  rw [isPrefixOf_append_iff, Bool.and_comm]

/-- all commands whose opcode starts with `buf` -/
def cands (buf : List Byte) : List Command := escPosCommands.filter (fun c => buf.isPrefixOf c.commands)

theorem isPrefixOf_refl (l : List Byte) : l.isPrefixOf l = true := by
  induction l <;> simp_all [List.isPrefixOf]

theorem eq_of_isPrefixOf_length {l m : List Byte} (h : l.isPrefixOf m = true) (hl : m.length = l.length) :
    m = l := by
  rw [List.isPrefixOf_iff_prefix] at h
  exact (h.eq_of_length hl.symm).symm

theorem cands_sublist (buf) : (cands buf).Sublist escPosCommands := List.filter_sublist

theorem mem_cands {buf c} : c ∈ cands buf ↔ c ∈ escPosCommands ∧ buf.isPrefixOf c.commands = true := by
  simp [cands]

theorem look_of_cands_nil {buf} (h : cands buf = []) : look buf = .nomatch := by
  have hno : ∀ c ∈ escPosCommands, buf.isPrefixOf c.commands = false := by
    intro c hc
    rw [Bool.eq_false_iff]
    intro hx
    have : c ∈ cands buf := mem_cands.2 ⟨hc, hx⟩
    simp [h] at this
  have h1 : escPosCommands.find? (fun c => c.commands == buf) = none := by
    rw [List.find?_eq_none]
    intro c hc hcb
    have hcb : c.commands = buf := by simpa using hcb
    have := hno c hc
    rw [hcb, isPrefixOf_refl] at this
    exact absurd this (by simp)
  have h2 : escPosCommands.any (fun c => buf.isPrefixOf c.commands) = false := by
    rw [List.any_eq_false]
    intro c hc
    simp [hno c hc]
  simp [look, h1, h2]

theorem look_of_cands_one {buf c} (h : cands buf = [c]) :
    (c.commands = buf ∧ look buf = .complete c) ∨ (c.commands.length ≠ buf.length ∧ look buf = .part) := by
  have hc : c ∈ cands buf := by simp [h]
  obtain ⟨hmem, hpre⟩ := mem_cands.1 hc
  by_cases hl : c.commands.length = buf.length
  · left
    have heq := eq_of_isPrefixOf_length hpre hl
    refine ⟨heq, ?_⟩
    have : escPosCommands.find? (fun c => c.commands == buf) = some c := by
      rcases hf : escPosCommands.find? (fun c => c.commands == buf) with _ | d
      · rw [List.find?_eq_none] at hf
        exact absurd (by simpa using heq) (hf c hmem)
      · have hd := List.find?_some hf
        have hdm := List.mem_of_find?_eq_some hf
        have hdb : d.commands = buf := by simpa using hd
        have : d ∈ cands buf := mem_cands.2 ⟨hdm, by rw [hdb, isPrefixOf_refl]⟩
        rw [h] at this
        have : d = c := by simpa using this
        rw [hf, this]
    simp [look, this]
  · right
    refine ⟨hl, ?_⟩
    have h1 : escPosCommands.find? (fun c => c.commands == buf) = none := by
      rw [List.find?_eq_none]
      intro d hd hdb
      have hdb : d.commands = buf := by simpa using hdb
      have : d ∈ cands buf := mem_cands.2 ⟨hd, by rw [hdb, isPrefixOf_refl]⟩
      rw [h] at this
      simp at this
      rw [← this, hdb] at hl
      exact hl rfl
    have h2 : escPosCommands.any (fun c => buf.isPrefixOf c.commands) = true := by
      rw [List.any_eq_true]; exact ⟨c, hmem, hpre⟩
    simp [look, h1, h2]

theorem look_of_cands_many {buf a b l} (h : cands buf = a :: b :: l) : look buf = .part := by
  have ha : a ∈ cands buf := by simp [h]
  obtain ⟨hmem, hpre⟩ := mem_cands.1 ha
  have hpf : (cands buf).Pairwise (fun a b => a.commands.isPrefixOf b.commands = false ∧
      b.commands.isPrefixOf a.commands = false) := table_prefixFree.sublist (cands_sublist buf)
  have h1 : escPosCommands.find? (fun c => c.commands == buf) = none := by
    rw [List.find?_eq_none]
    intro d hd hdb
    have hdb : d.commands = buf := by simpa using hdb
    have hdc : d ∈ cands buf := mem_cands.2 ⟨hd, by rw [hdb, isPrefixOf_refl]⟩
    -- every candidate has d's opcode as a prefix
    have key : ∀ e ∈ cands buf, d.commands.isPrefixOf e.commands = true := by
      intro e he; rw [hdb]; exact (mem_cands.1 he).2
    rw [h] at hpf hdc key
    rw [List.pairwise_cons] at hpf
    rcases List.mem_cons.1 hdc with rfl | hdl
    · have := (hpf.1 b (by simp)).1
      rw [key b (by simp)] at this; exact absurd this (by simp)
    · have := (hpf.1 d hdl).2
      rw [key a (by simp)] at this; exact absurd this (by simp)
  have h2 : escPosCommands.any (fun c => buf.isPrefixOf c.commands) = true := by
    rw [List.any_eq_true]; exact ⟨a, hmem, hpre⟩
  simp [look, h1, h2]

/-! ### Refinement -/

/-- The command that is open while `isDef` holds collects every byte. -/
def DefCmd (c : Command) : Prop := c.dataKind = .text ∨ c.dataKind = .unknown

structure Refines (p : Parser) (s : PS) : Prop where
  set : p.cmdSet = escPos
  cur : p.currentCommand = s.cur
  isDef : p.currentCommandIsDefault = s.isDef
  buf : p.commandBuffer = s.pend
  depth : p.matchDepth = s.pend.length
  matches_ : s.pend ≠ [] → p.commandMatches = cands s.pend
  out : p.capturedCommands = s.out
  defCmd : s.isDef = true → ∃ c, s.cur = some c ∧ DefCmd c

theorem push_defCmd {c : Command} (h : DefCmd c) (b : Byte) :
    c.push b = .ok ({ c with data := c.data ++ [b] }, true) := by
  rcases h with h | h <;> simp [Command.push, h] <;> rfl

theorem textCmd_def : DefCmd textCmd := by left; rfl
theorem unknownCmd_def (d) : DefCmd { unknownCmd with data := d } := by right; rfl

theorem search_refines {p s} (h : Refines p s) (b : Byte) :
    ∃ q, p.search b = .ok q ∧ Refines q (s.search b) := by
  obtain ⟨hset, hcur, hdef, hbuf, hdepth, hm, hout, hdc⟩ := h
  have hsub : (if p.matchDepth = 0 then p.cmdSet.commands else p.commandMatches).filter
      (fun c => c.commands[p.matchDepth]? == some b) = cands (s.pend ++ [b]) := by
    rcases hp : s.pend with _ | ⟨x, xs⟩
    · rw [hp] at hdepth
      simp only [List.length_nil] at hdepth
      rw [hdepth, if_pos rfl, hset]
      show escPosCommands.filter _ = _
      have := filter_filter_prefix escPosCommands [] b
      simpa [cands, List.isPrefixOf] using this
    · have hne : s.pend ≠ [] := by simp [hp]
      have hd0 : p.matchDepth ≠ 0 := by rw [hdepth, hp]; simp
      rw [if_neg hd0, hm hne, hdepth]
      rw [← hp]
      exact filter_filter_prefix escPosCommands s.pend b
  unfold Parser.search
  dsimp only
  rw [hsub]
  rcases hc : cands (s.pend ++ [b]) with _ | ⟨a, _ | ⟨a', l⟩⟩
  · -- no match
    have hl := look_of_cands_nil hc
    simp only []
    unfold Parser.noMatch PS.search
    simp only [hl, hset, hbuf, hdef, hcur, hout]
    have hlead : escPos.leads (s.pend ++ [b]) = isLead (s.pend ++ [b]) := rfl
    rw [hlead]
    by_cases hL : isLead (s.pend ++ [b]) = true
    · simp only [hL, if_true]
      rcases hcu : s.cur with _ | c
      · refine ⟨_, rfl, ?_⟩
        constructor <;> simp [Parser.emit, emittedOrUnknown, escPos, hout]
        · rfl
        · exact unknownCmd_def _
      · refine ⟨_, rfl, ?_⟩
        constructor <;> simp [Parser.emit, emittedOrUnknown, escPos, hout]
        · exact unknownCmd_def _
    · simp only [hL]
      by_cases hD : s.isDef = true
      · obtain ⟨c, hc1, hc2⟩ := hdc hD
        simp only [hD, hc1, push_defCmd hc2]
        refine ⟨_, rfl, ?_⟩
        constructor <;> simp [hset, hout]
        exact hc2
      · simp only [Bool.not_eq_true] at hD
        simp only [hD]
        have hpush : escPos.default.push b = .ok ({ textCmd with data := [b] }, true) := by
          exact push_defCmd textCmd_def b
        rw [hpush]
        rcases hcu : s.cur with _ | c
        · refine ⟨_, rfl, ?_⟩
          constructor <;> simp [Parser.emit, emittedOrUnknown, escPos, hout]
          · rfl
          · exact textCmd_def
        · refine ⟨_, rfl, ?_⟩
          constructor <;> simp [Parser.emit, emittedOrUnknown, escPos, hout]
          · exact textCmd_def
  · -- one match
    have hmem := (mem_cands.1 (show a ∈ cands (s.pend ++ [b]) by simp [hc])).1
    have hlen := table_lengths a hmem
    have hsu : subU a.commands.length 1 = .ok (a.commands.length - 1) := by
      simp [subU, hlen.1]
    simp only [hsu]
    rcases look_of_cands_one hc with ⟨he, hl⟩ | ⟨hne, hl⟩
    · have : ¬ (a.commands.length - 1 ≠ p.matchDepth) := by
        rw [he, hdepth]; simp
      refine ⟨_, by simp only [bind, Except.bind, if_neg this]; rfl, ?_⟩
      unfold PS.search
      simp only [hl]
      rcases hcu : s.cur with _ | c
      · constructor <;> simp [Parser.emitOpt, hcur, hcu, hset, hout, emittedOpt]
      · constructor <;> simp [Parser.emitOpt, Parser.emit, hcur, hcu, hset, hout, emittedOpt]
    · have : (a.commands.length - 1 ≠ p.matchDepth) := by
        rw [hdepth]
        simp only [List.length_append, List.length_cons, List.length_nil] at hne
        omega
      refine ⟨_, by simp only [bind, Except.bind, if_pos this]; rfl, ?_⟩
      unfold PS.search
      simp only [hl]
      constructor <;> simp [hset, hcur, hdef, hbuf, hdepth, hout, hc]
      exact hdc
  · -- several matches
    have hl := look_of_cands_many hc
    refine ⟨_, rfl, ?_⟩
    unfold PS.search
    simp only [hl]
    constructor <;> simp [hset, hcur, hdef, hbuf, hdepth, hout, hc]
    exact hdc

theorem step_refines {p s} (h : Refines p s) (b : Byte) :
    (∃ e, p.parse b = .error e ∧ s.step b = .error e) ∨
    (∃ q t, p.parse b = .ok q ∧ s.step b = .ok t ∧ Refines q t) := by
  have h' := h
  obtain ⟨hset, hcur, hdef, hbuf, hdepth, hm, hout, hdc⟩ := h'
  unfold Parser.parse PS.step
  have hsearch : ∃ q, p.search b = .ok q ∧ Refines q (s.search b) := search_refines h b
  rcases hp : s.pend with _ | ⟨x, xs⟩
  · rcases hd : s.isDef with _ | _
    · have hd0 : (p.matchDepth = 0 && !p.currentCommandIsDefault) = true := by
        simp [hdepth, hp, hdef, hd]
      simp only [hd0, if_true, hcur]
      rcases hcu : s.cur with _ | c
      · obtain ⟨q, h1, h2⟩ := hsearch
        right; exact ⟨q, _, h1, rfl, h2⟩
      · simp only []
        rcases hpu : c.push b with e | ⟨c', ok⟩
        · left; exact ⟨e, rfl, rfl⟩
        · right
          cases ok
          · have hr : Refines { p with currentCommand := some c' } { s with cur := some c' } := by
              constructor <;> simp_all
            obtain ⟨q, h1, h2⟩ := search_refines hr b
            refine ⟨q, _, ?_, rfl, ?_⟩
            · simpa [bind, Except.bind] using h1
            · simpa [hp, hd] using h2
          · refine ⟨_, _, rfl, rfl, ?_⟩
            constructor <;> simp_all
    · have hd0 : (p.matchDepth = 0 && !p.currentCommandIsDefault) = false := by
        simp [hdef, hd]
      simp only [hd0]
      obtain ⟨q, h1, h2⟩ := hsearch
      right; exact ⟨q, _, h1, rfl, h2⟩
  · have hd0 : (p.matchDepth = 0 && !p.currentCommandIsDefault) = false := by
      simp [hdepth, hp]
    simp only [hd0]
    obtain ⟨q, h1, h2⟩ := hsearch
    right; exact ⟨q, _, h1, rfl, h2⟩

theorem run_refines {p s} (h : Refines p s) (bs : List Byte) :
    (∃ e, p.parseAll bs = .error e ∧ s.run bs = .error e) ∨
    (∃ q t, p.parseAll bs = .ok q ∧ s.run bs = .ok t ∧ Refines q t) := by
  induction bs generalizing p s with
  | nil => right; exact ⟨p, s, rfl, rfl, h⟩
  | cons b bs ih =>
    rcases step_refines h b with ⟨e, h1, h2⟩ | ⟨q, t, h1, h2, h3⟩
    · left; exact ⟨e, by simp [Parser.parseAll, h1, bind, Except.bind], by simp [PS.run, h2, bind, Except.bind]⟩
    · simp only [Parser.parseAll, PS.run, h1, h2, bind, Except.bind]
      exact ih h3

/-- A parser as `Parser::new` or a previous `parse_bytes` leaves it. -/
structure Fresh (p : Parser) : Prop where
  set : p.cmdSet = escPos
  cur : p.currentCommand = none
  isDef : p.currentCommandIsDefault = false
  buf : p.commandBuffer = []
  depth : p.matchDepth = 0
  out : p.capturedCommands = []

theorem fresh_new : Fresh (Parser.new escPos) := by constructor <;> rfl

theorem fresh_refines {p} (h : Fresh p) : Refines (p.emit p.cmdSet.beginParsing) PS.init := by
  obtain ⟨h1, h2, h3, h4, h5, h6⟩ := h
  constructor <;> simp [Parser.emit, PS.init, *]
  rfl

theorem finish_eq {q t} (h : Refines q t) : q.finish.1 = t.finish ∧ Fresh q.finish.2 := by
  obtain ⟨hset, hcur, hdef, hbuf, hdepth, hm, hout, hdc⟩ := h
  constructor
  · rcases hc : t.cur with _ | c <;>
      simp [Parser.finish, PS.finish, Parser.emitOpt, Parser.emit, hcur, hc, hset, hout, emittedOpt] <;> rfl
  · rcases hc : t.cur with _ | c <;> constructor <;>
      simp [Parser.finish, Parser.emitOpt, Parser.emit, hcur, hc, hset]

/-- The parser model and the small formulation compute the same commands, from any fresh parser. -/
theorem parseBytes_eq {p} (h : Fresh p) (bs : List Byte) :
    (∃ e, p.parseBytes bs = .error e ∧ PS.init.run bs = .error e) ∨
    (∃ t p', p.parseBytes bs = .ok (t.finish, p') ∧ PS.init.run bs = .ok t ∧ Fresh p') := by
  rcases run_refines (fresh_refines h) bs with ⟨e, h1, h2⟩ | ⟨q, t, h1, h2, h3⟩
  · left; exact ⟨e, by simp [Parser.parseBytes, h1, bind, Except.bind], h2⟩
  · right
    obtain ⟨hf1, hf2⟩ := finish_eq h3
    refine ⟨t, q.finish.2, ?_, h2, hf2⟩
    simp only [Parser.parseBytes, h1, bind, Except.bind, pure, Except.pure]
    rw [← hf1]

theorem parseEscPos_eq (bs : List Byte) :
    parseEscPos bs = (PS.init.run bs).map PS.finish := by
  rcases parseBytes_eq fresh_new bs with ⟨e, h1, h2⟩ | ⟨t, p', h1, h2, _⟩
  · simp [parseEscPos, h1, h2, bind, Except.bind, Except.map]
  · simp [parseEscPos, h1, h2, bind, Except.bind, Except.map, pure, Except.pure]

end Thermal
