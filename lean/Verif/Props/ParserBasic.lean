import Verif.Proofs.ParserInv
import Verif.Spec.Parser
/-
C01 – C06: framing, reuse, streaming, size, opcode table, fixed parameter counts.
-/
namespace Thermal
set_option linter.unusedSimpArgs false

theorem UserParser.fresh {p} (h : UserParser p) : Fresh p := by
  induction h with
  | new => exact fresh_new
  | @used p q bytes cmds hp hpb ih =>
    rcases parseBytes_eq ih bytes with ⟨e, h1, _⟩ | ⟨t, p', h1, _, h3⟩
    · rw [h1] at hpb; simp at hpb
    · rw [h1] at hpb
      simp only [Except.ok.injEq, Prod.mk.injEq] at hpb
      rw [← hpb.2]; exact h3

/-- a concrete used parser -/
example : ∃ q, UserParser q ∧ ((Parser.new escPos).parseBytes [27, 64, 72, 105]).map Prod.snd = .ok q := by
  obtain ⟨⟨cmds, q⟩, h⟩ : ∃ r, (Parser.new escPos).parseBytes [27, 64, 72, 105] = .ok r := ⟨_, rfl⟩
  exact ⟨q, .used .new h, by rw [h]; rfl⟩

/-! ### C01 -/

theorem fromTable_handler {c} (h : FromTable c) : ¬ c.isBegin ∧ ¬ c.isEnd := by
  have key : ∀ b ∈ escPosCommands, ¬ b.handler.sameClass (.unit .beginPrint) ∧
      ¬ b.handler.sameClass (.unit .endPrint) := by
    have : ∀ b ∈ escPosCommands, b.handler ≠ .unit .beginPrint ∧ b.handler ≠ .unit .endPrint := by
      decide +kernel
    intro b hb
    obtain ⟨h1, h2⟩ := this b hb
    constructor
    · intro hs; apply h1
      cases hh : b.handler <;> simp_all [Handler.sameClass]
    · intro hs; apply h2
      cases hh : b.handler <;> simp_all [Handler.sameClass]
  constructor
  · intro hb
    unfold Command.isBegin at hb
    rcases h with ⟨base, hm, hd⟩ | hd | hd
    · have := hd.handler; rw [hb] at this; exact (key base hm).1 this
    · have := hd.handler; rw [hb] at this; simp [textCmd, Handler.sameClass] at this
    · have := hd.handler; rw [hb] at this; simp [unknownCmd, Handler.sameClass] at this
  · intro hb
    unfold Command.isEnd at hb
    rcases h with ⟨base, hm, hd⟩ | hd | hd
    · have := hd.handler; rw [hb] at this; exact (key base hm).2 this
    · have := hd.handler; rw [hb] at this; simp [textCmd, Handler.sameClass] at this
    · have := hd.handler; rw [hb] at this; simp [unknownCmd, Handler.sameClass] at this

theorem emitted_handler {c} (h : FromTable c) : ∀ d ∈ emitted c, ¬ d.isBegin ∧ ¬ d.isEnd := by
  intro d hd
  unfold emitted at hd
  split at hd
  · split at hd
    · simp only [List.mem_singleton] at hd; subst hd
      simp [Command.isBegin, Command.isEnd, SubCmd.toCommand]
    · simp at hd
  · simp only [List.mem_singleton] at hd; subst hd; exact fromTable_handler h

theorem unknown_handler (d) : ¬ ({ unknownCmd with data := d } : Command).isBegin ∧
    ¬ ({ unknownCmd with data := d } : Command).isEnd := by
  simp [Command.isBegin, Command.isEnd, unknownCmd]

/-- out = Begin Print followed by unmarked commands -/
theorem out_framed {bs s} (h : PS.init.run bs = .ok s) :
    ∃ mid, s.out = beginPrintCmd :: mid ∧ ∀ c ∈ mid, ¬ c.isBegin ∧ ¬ c.isEnd := by
  refine PS.run_induct (fun _ s => ∃ mid, s.out = beginPrintCmd :: mid ∧ ∀ c ∈ mid, ¬ c.isBegin ∧ ¬ c.isEnd)
    ⟨[], rfl, by simp⟩ ?_ bs s h
  intro xs s b s' hrun ih hs
  have hcur := PS.cur_fromTable hrun
  obtain ⟨mid, hm, hall⟩ := ih
  have key : ∀ (t : PS) (s' : PS), t.out = s.out → (∀ c, t.cur = some c → FromTable c) → SearchCase t b s' →
      ∃ mid, s'.out = beginPrintCmd :: mid ∧ ∀ c ∈ mid, ¬ c.isBegin ∧ ¬ c.isEnd := by
    intro t s' hout hcur hsc
    have hOpt : ∀ c ∈ emittedOpt t.cur, ¬ c.isBegin ∧ ¬ c.isEnd := by
      rcases hc : t.cur with _ | d
      · simp [emittedOpt]
      · exact emitted_handler (hcur d hc)
    have hUnk : ∀ c ∈ emittedOrUnknown t.cur, ¬ c.isBegin ∧ ¬ c.isEnd := by
      rcases hc : t.cur with _ | d
      · intro c hc; simp only [emittedOrUnknown, List.mem_singleton] at hc; subst hc
        exact unknown_handler []
      · exact emitted_handler (hcur d hc)
    cases hsc with
    | complete c hl =>
      refine ⟨mid ++ emittedOpt t.cur, by simp [hout, hm], ?_⟩
      intro c hc; rcases List.mem_append.1 hc with h | h
      · exact hall c h
      · exact hOpt c h
    | part hl => exact ⟨mid, by simp [hout, hm], hall⟩
    | lead hl hL =>
      refine ⟨mid ++ emittedOrUnknown t.cur, by simp [hout, hm], ?_⟩
      intro c hc; rcases List.mem_append.1 hc with h | h
      · exact hall c h
      · exact hUnk c h
    | append hl hL hd => exact ⟨mid, by simp [hout, hm], hall⟩
    | text hl hL hd =>
      refine ⟨mid ++ emittedOrUnknown t.cur, by simp [hout, hm], ?_⟩
      intro c hc; rcases List.mem_append.1 hc with h | h
      · exact hall c h
      · exact hUnk c h
  cases step_case hs with
  | push c c' hp hd hc hpu => exact ⟨mid, hm, hall⟩
  | reject c c' hp hd hc hpu s' hsc =>
    refine key { s with cur := some c' } _ rfl ?_ hsc
    intro d hd; simp only [Option.some.injEq] at hd; subst hd; exact (hcur c hc).push hpu
  | search hns s' hsc => exact key s _ rfl hcur hsc

theorem finish_framed {bs s} (h : PS.init.run bs = .ok s) :
    ∃ mid, s.finish = beginPrintCmd :: mid ++ [endPrintCmd] ∧ ∀ c ∈ mid, ¬ c.isBegin ∧ ¬ c.isEnd := by
  obtain ⟨mid, hm, hall⟩ := out_framed h
  refine ⟨mid ++ emittedOpt s.cur, by simp [PS.finish, hm], ?_⟩
  intro c hc; rcases List.mem_append.1 hc with h' | h'
  · exact hall c h'
  · rcases hcu : s.cur with _ | d
    · rw [hcu] at h'; simp [emittedOpt] at h'
    · rw [hcu] at h'; exact emitted_handler (PS.cur_fromTable h d hcu) c h'

/-- C01.  Whatever the parser was used for before, the result starts with Begin Print, ends with End Print,
and contains neither anywhere else. -/
theorem C01_framed {p q : Parser} {bytes : List Byte} {cmds : List Command}
    (hp : UserParser p) (h : p.parseBytes bytes = .ok (cmds, q)) :
    ∃ mid, cmds = beginPrintCmd :: mid ++ [endPrintCmd] ∧ ∀ c ∈ mid, ¬ c.isBegin ∧ ¬ c.isEnd := by
  rcases parseBytes_eq hp.fresh bytes with ⟨e, h1, _⟩ | ⟨t, p', h1, h2, _⟩
  · rw [h1] at h; simp at h
  · rw [h1] at h
    simp only [Except.ok.injEq, Prod.mk.injEq] at h
    rw [← h.1]; exact finish_framed h2

example : ∃ q cmds, (Parser.new escPos).parseBytes [72, 27, 69, 1, 105] = .ok (cmds, q) := ⟨_, _, rfl⟩

/-! ### C02 -/

/-- C02.  A used parser gives the same result (commands or panic) as a new one. -/
theorem C02_reusable {p : Parser} (hp : UserParser p) (bytes : List Byte) :
    (p.parseBytes bytes).map Prod.fst = ((Parser.new escPos).parseBytes bytes).map Prod.fst := by
  rcases parseBytes_eq hp.fresh bytes with ⟨e, h1, h2⟩ | ⟨t, p', h1, h2, _⟩ <;>
  rcases parseBytes_eq fresh_new bytes with ⟨e', h1', h2'⟩ | ⟨t', p'', h1', h2', _⟩
  · rw [h1, h1']; rw [h2] at h2'; simp_all [Except.map]
  · rw [h2] at h2'; simp at h2'
  · rw [h2] at h2'; simp at h2'
  · rw [h1, h1']; rw [h2] at h2'; simp_all [Except.map]

/-! ### C03 -/

theorem search_out_prefix {s s' : PS} {b} (h : SearchCase s b s') : s.out <+: s'.out := by
  cases h <;> simp

theorem step_out_prefix {s s' : PS} {b} (h : s.step b = .ok s') : s.out <+: s'.out := by
  cases step_case h with
  | push => simp
  | reject c c' _ _ _ _ s' hs => have := search_out_prefix hs; exact this
  | search _ s' hs => exact search_out_prefix hs

theorem run_out_prefix {s s' : PS} {bs} (h : s.run bs = .ok s') : s.out <+: s'.out := by
  induction bs generalizing s with
  | nil => simp only [PS.run, pure, Except.pure, Except.ok.injEq] at h; subst h; exact List.prefix_refl _
  | cons b bs ih =>
    simp only [PS.run, bind, Except.bind] at h
    split at h
    · simp at h
    · rename_i t ht
      exact (step_out_prefix ht).trans (ih h)

theorem emittedOpt_length (c) : (emittedOpt c).length ≤ 1 := by
  rcases c with _ | c
  · simp [emittedOpt]
  · simp only [emittedOpt, emitted]
    repeat' split
    all_goals simp

theorem emittedOrUnknown_length (c) : (emittedOrUnknown c).length ≤ 1 := by
  rcases c with _ | c
  · simp [emittedOrUnknown]
  · exact emittedOpt_length (some c)

/-- C03.  If a stream parses, so does each of its prefixes, and all commands of the prefix' result except the
one still open at its end (and End Print) reappear unchanged and in place. -/
theorem C03_streaming {xs ys : List Byte} {whole : List Command} (h : parseEscPos (xs ++ ys) = .ok whole) :
    ∃ part, parseEscPos xs = .ok part ∧ part.dropLast.dropLast <+: whole := by
  rw [parseEscPos_eq, PS.run_append] at h
  rcases hx : PS.init.run xs with e | s
  · rw [hx] at h; simp [Except.bind, Except.map] at h
  · rw [hx] at h
    simp only [Except.bind] at h
    rcases hy : s.run ys with e | t
    · rw [hy] at h; simp [Except.map] at h
    · rw [hy] at h
      simp only [Except.map, Except.ok.injEq] at h
      refine ⟨s.finish, by rw [parseEscPos_eq, hx]; rfl, ?_⟩
      subst h
      have hp := run_out_prefix hy
      have h1 : s.finish.dropLast = s.out ++ emittedOpt s.cur := by rw [PS.finish, List.dropLast_concat]
      rw [h1]
      have h2 : (s.out ++ emittedOpt s.cur).dropLast <+: s.out := by
        have hl := emittedOpt_length s.cur
        rcases he : emittedOpt s.cur with _ | ⟨c, _ | ⟨d, l⟩⟩
        · rw [List.append_nil]; exact List.dropLast_prefix _
        · rw [List.dropLast_concat]; exact List.prefix_refl _
        · rw [he] at hl; simp at hl
      refine h2.trans (hp.trans ?_)
      rw [PS.finish, List.append_assoc]; exact List.prefix_append _ _

example : parseEscPos ([72, 105] ++ [27, 69, 1]) ≠ .error .overflow := by decide +kernel

/-! ### C04 -/

theorem count_inv {bs s} (h : PS.init.run bs = .ok s) :
    (s.cur = none → s.out.length ≤ 1) ∧ s.out.length ≤ bs.length + 1 := by
  refine PS.run_induct (fun bs s => (s.cur = none → s.out.length ≤ 1) ∧ s.out.length ≤ bs.length + 1)
    (by simp [PS.init]) ?_ bs s h
  intro xs s b s' _ ih hs
  have key : ∀ (t : PS) (s' : PS), (t.cur = none → t.out.length ≤ 1) ∧ t.out.length ≤ xs.length + 1 →
      SearchCase t b s' → (s'.cur = none → s'.out.length ≤ 1) ∧ s'.out.length ≤ (xs ++ [b]).length + 1 := by
    intro t s' ih hsc
    have h1 := emittedOpt_length t.cur
    have h2 := emittedOrUnknown_length t.cur
    cases hsc with
    | complete c hl => simp; omega
    | part hl => simp; exact ⟨ih.1, by omega⟩
    | lead hl hL => simp; omega
    | append hl hL hd => simp; exact ⟨ih.1, by omega⟩
    | text hl hL hd => simp; omega
  cases step_case hs with
  | push c c' hp hd hc hpu => simp; omega
  | reject c c' hp hd hc hpu s' hsc => exact key { s with cur := some c' } _ ⟨by simp, ih.2⟩ hsc
  | search hns s' hsc => exact key s _ ih hsc

/-- C04.  At most |bytes| + 3 commands (Begin, End and one per byte, plus the empty Unknown in front of leading
text). -/
theorem C04_linear {bytes : List Byte} {cmds : List Command} (h : parseEscPos bytes = .ok cmds) :
    cmds.length ≤ bytes.length + 3 := by
  rw [parseEscPos_eq] at h
  rcases hx : PS.init.run bytes with e | s
  · rw [hx] at h; simp [Except.map] at h
  · rw [hx] at h
    simp only [Except.map, Except.ok.injEq] at h
    subst h
    have h1 := count_inv hx
    have h2 := emittedOpt_length s.cur
    simp [PS.finish]; omega

/-- the bound is attained -/
example : (parseEscPos [72]).map List.length = .ok ([72].length + 3) := by decide +kernel

/-! ### C05 -/

/-- C05, table part.  Different commands of the set have opcodes none of which is a prefix of the other, and no
opcode is empty. -/
theorem C05_table_unambiguous :
    escPos.commands.Pairwise (fun a b => ¬ a.commands <+: b.commands ∧ ¬ b.commands <+: a.commands) ∧
    ∀ c ∈ escPos.commands, c.commands ≠ [] := by
  constructor
  · refine table_prefixFree.imp ?_
    intro a b h
    rw [← List.isPrefixOf_iff_prefix, ← List.isPrefixOf_iff_prefix]; simp [h]
  · intro c hc he
    have := (table_lengths c hc).1
    rw [he] at this; simp at this

theorem opcode_tail_run {c : Command} (hc : c ∈ escPosCommands) (s : PS) (pre post : List Byte)
    (hs : s.pend = pre) (hpre : pre ≠ []) (he : c.commands = pre ++ post) (hpost : post ≠ []) :
    s.run post = .ok { cur := some c, isDef := false, pend := [], out := s.out ++ emittedOpt s.cur } := by
  induction post generalizing s pre with
  | nil => exact absurd rfl hpost
  | cons b post ih =>
    have hstep : s.step b = .ok (s.search b) := by
      unfold PS.step
      rw [hs]
      rcases pre with _ | ⟨p, ps⟩
      · exact absurd rfl hpre
      · rfl
    simp only [PS.run, hstep, bind, Except.bind]
    rcases post with _ | ⟨b', post⟩
    · have hl : look (s.pend ++ [b]) = .complete c := by
        rw [hs, ← he]; exact look_opcode hc
      simp [PS.search, hl, PS.run, pure, Except.pure]
    · have hl : look (s.pend ++ [b]) = .part := by
        rw [hs]
        refine look_prefix hc ⟨b' :: post, by simp [he]⟩ ?_
        intro h
        rw [he] at h
        have := congrArg List.length h
        simp at this
      have : s.search b = { s with pend := s.pend ++ [b] } := by simp [PS.search, hl]
      rw [this]
      exact ih { s with pend := s.pend ++ [b] } (pre ++ [b]) (by simp [hs]) (by simp) (by simp [he]) (by simp)

/-- The opcode of a command selects it from any state in which the search starts. -/
theorem opcode_search {c : Command} (hc : c ∈ escPosCommands) (s : PS) (hp : s.pend = []) {b post}
    (he : c.commands = b :: post) :
    (s.search b).run post = .ok { cur := some c, isDef := false, pend := [], out := s.out ++ emittedOpt s.cur } := by
  rcases post with _ | ⟨b', post⟩
  · have hl : look (s.pend ++ [b]) = .complete c := by
      rw [hp]; simp only [List.nil_append]; rw [← he]; exact look_opcode hc
    simp [PS.search, hl, PS.run, pure, Except.pure]
  · have hl : look (s.pend ++ [b]) = .part := by
      rw [hp]
      refine look_prefix hc ⟨b' :: post, by simp [he]⟩ ?_
      intro h
      rw [he] at h
      have := congrArg List.length h
      simp at this
    have : s.search b = { s with pend := s.pend ++ [b] } := by simp [PS.search, hl]
    rw [this]
    exact opcode_tail_run hc _ [b] (b' :: post) (by simp [hp]) (by simp) (by simp [he]) (by simp)

/-- A parser position where no opcode is half read and the open command (if any) is a text run or does not take
another byte. -/
def AtBoundary (p : Parser) : Prop :=
  p.matchDepth = 0 ∧ (p.currentCommand = none ∨ p.currentCommandIsDefault = true ∨
    ∃ c, p.currentCommand = some c ∧ ∀ b, ∃ c', c.push b = .ok (c', false))

/-- C05, parser part.  After any input that leaves the parser at a boundary, the bytes of an opcode open exactly
that command (with no data yet). -/
theorem C05_opcode_selects {p q : Parser} {xs : List Byte} {c : Command} (hp : UserParser p)
    (hrun : (p.emit p.cmdSet.beginParsing).parseAll xs = .ok q) (hb : AtBoundary q)
    (hc : c ∈ escPos.commands) :
    ∃ r, q.parseAll c.commands = .ok r ∧ r.currentCommand = some c ∧ r.matchDepth = 0 ∧
      r.currentCommandIsDefault = false := by
  rcases run_refines (fresh_refines hp.fresh) xs with ⟨e, h1, _⟩ | ⟨q', s, h1, h2, h3⟩
  · rw [h1] at hrun; simp at hrun
  · rw [h1] at hrun; simp only [Except.ok.injEq] at hrun; subst hrun
    have hpend : s.pend = [] := by
      have := h3.depth; rw [hb.1] at this; exact List.length_eq_zero_iff.1 this.symm
    obtain ⟨b, post, he⟩ : ∃ b post, c.commands = b :: post := by
      rcases hcc : c.commands with _ | ⟨b, post⟩
      · exact absurd hcc (C05_table_unambiguous.2 c hc)
      · exact ⟨b, post, rfl⟩
    obtain ⟨t, ht, htc⟩ : ∃ t, s.run c.commands = .ok t ∧ t.cur = some c ∧ t.pend = [] ∧ t.isDef = false := by
      rw [he]
      simp only [PS.run, bind]
      unfold PS.step
      split
      · rename_i c0 hd0 hcur
        rcases hb.2 with hn | hdef | ⟨c1, hc1, hrej⟩
        · rw [h3.cur, hcur] at hn; simp at hn
        · rw [h3.isDef, hd0] at hdef; simp at hdef
        · rw [h3.cur, hcur] at hc1; simp only [Option.some.injEq] at hc1; subst hc1
          obtain ⟨c', hpu⟩ := hrej b
          rw [hpu]
          simp only [bind, Except.bind, pure, Except.pure, Bool.false_eq_true, if_false]
          exact ⟨_, opcode_search hc _ (by simp [hpend]) he, rfl, rfl, rfl⟩
      · simp only [bind, Except.bind, pure, Except.pure]
        exact ⟨_, opcode_search hc _ hpend he, rfl, rfl, rfl⟩
    rcases run_refines h3 c.commands with ⟨e, h4, h5⟩ | ⟨r, t', h4, h5, h6⟩
    · rw [ht] at h5; simp at h5
    · rw [ht] at h5; simp only [Except.ok.injEq] at h5; subst h5
      refine ⟨r, h4, ?_, ?_, ?_⟩
      · rw [h6.cur]; exact htc.1
      · rw [h6.depth, htc.2.1]; rfl
      · rw [h6.isDef]; exact htc.2.2

/-- After `ESC E 1` the parser is at a boundary. -/
example : ∃ q, ((Parser.new escPos).emit beginPrintCmd).parseAll [27, 69, 1] = .ok q ∧ AtBoundary q := by
  refine ⟨_, rfl, rfl, .inr (.inr ⟨{ setEmphasisCmd with data := [1] }, rfl, ?_⟩)⟩
  intro b; exact ⟨_, rfl⟩

/-! ### C06 -/

theorem arity_eq_fixedCount (k : DataType) : k.arity = fixedCount k := by cases k <;> rfl

theorem push_fixed {c c' : Command} {b ok n} (hn : fixedCount c.dataKind = some n) (h : c.push b = .ok (c', ok)) :
    (ok = true ∧ c'.data.length = c.data.length + 1 ∧ c.data.length < n) ∨
    (ok = false ∧ c' = c ∧ n ≤ c.data.length) := by
  rw [← arity_eq_fixedCount] at hn
  unfold Command.push at h
  split at h
  · rename_i hk; simp [hk, DataType.arity] at hn
  · rename_i hk; simp [hk, DataType.arity] at hn
  · rename_i hk; simp [hk, DataType.arity] at hn
  · rename_i hk; simp [hk, DataType.arity] at hn
  · rw [hn] at h
    simp only [pure, Except.pure] at h
    split at h <;> simp only [Except.ok.injEq, Prod.mk.injEq] at h <;> obtain ⟨rfl, rfl⟩ := h
    · right; exact ⟨rfl, rfl, by omega⟩
    · left; refine ⟨rfl, by simp, by omega⟩

theorem fromTable_fixed_def {c : Command} (hd : DefCmd c) : fixedCount c.dataKind = none := by
  rcases hd with h | h <;> simp [h, fixedCount]

/-- exact length for a fixed-size command -/
def Exact (c : Command) : Prop := ∀ n, fixedCount c.dataKind = some n → c.data.length = n

def AtMost (c : Command) : Prop := ∀ n, fixedCount c.dataKind = some n → c.data.length ≤ n

theorem emitted_exact {c : Command} (h : Exact c) : ∀ d ∈ emitted c, Exact d := by
  intro d hd
  unfold emitted at hd
  split at hd
  · split at hd
    · simp only [List.mem_singleton] at hd; subst hd
      intro n hn; simp [SubCmd.toCommand, fixedCount] at hn
    · simp at hd
  · simp only [List.mem_singleton] at hd; subst hd; exact h

theorem emitted_atMost {c : Command} (h : AtMost c) : ∀ d ∈ emitted c, AtMost d := by
  intro d hd
  unfold emitted at hd
  split at hd
  · split at hd
    · simp only [List.mem_singleton] at hd; subst hd
      intro n hn; simp [SubCmd.toCommand, fixedCount] at hn
    · simp at hd
  · simp only [List.mem_singleton] at hd; subst hd; exact h

theorem table_data_empty : ∀ c ∈ escPosCommands, c.data = [] := by decide +kernel

theorem unknown_exact (d) : Exact { unknownCmd with data := d } := by
  intro n hn; simp [unknownCmd, fixedCount] at hn
theorem text_exact (d) : Exact { textCmd with data := d } := by
  intro n hn; simp [textCmd, fixedCount] at hn
theorem data_exact {c : Command} (h : DefCmd c) (d) : Exact { c with data := d } := by
  intro n hn
  have : fixedCount c.dataKind = some n := hn
  rw [fromTable_fixed_def h] at this; simp at this

structure FixedInv (s : PS) : Prop where
  out : ∀ c ∈ s.out, Exact c
  cur : ∀ c, s.cur = some c → AtMost c
  closed : ∀ c, s.cur = some c → (s.pend ≠ [] ∨ s.isDef = true) → Exact c
  isDef : s.isDef = true → ∃ c, s.cur = some c ∧ DefCmd c

theorem search_fixedInv {s : PS} {b s'} (h : FixedInv s) (hc : ∀ c, s.cur = some c → Exact c)
    (hs : SearchCase s b s') : FixedInv s' := by
  have hOpt : ∀ c ∈ emittedOpt s.cur, Exact c := by
    rcases hcu : s.cur with _ | d
    · simp [emittedOpt]
    · exact emitted_exact (hc d hcu)
  have hUnk : ∀ c ∈ emittedOrUnknown s.cur, Exact c := by
    rcases hcu : s.cur with _ | d
    · intro c hc; simp only [emittedOrUnknown, List.mem_singleton] at hc; subst hc
      exact unknown_exact []
    · exact emitted_exact (hc d hcu)
  have hout1 : ∀ c ∈ s.out ++ emittedOpt s.cur, Exact c := by
    intro c hc'; rcases List.mem_append.1 hc' with h' | h'
    · exact h.out c h'
    · exact hOpt c h'
  have hout2 : ∀ c ∈ s.out ++ emittedOrUnknown s.cur, Exact c := by
    intro c hc'; rcases List.mem_append.1 hc' with h' | h'
    · exact h.out c h'
    · exact hUnk c h'
  have e2m : ∀ c, Exact c → AtMost c := fun c h n hn => Nat.le_of_eq (h n hn)
  cases hs with
  | complete c hl =>
    refine ⟨hout1, ?_, by simp, by simp⟩
    intro d hd n hn
    simp only [Option.some.injEq] at hd; subst hd
    rw [table_data_empty c (look_complete hl).1]; simp
  | part hl => exact ⟨h.out, h.cur, fun c h1 _ => hc c h1, h.isDef⟩
  | lead hl hL =>
    refine ⟨hout2, ?_, ?_, fun _ => ⟨_, rfl, unknownCmd_def _⟩⟩
    · intro d hd; simp only [Option.some.injEq] at hd; subst hd; exact e2m _ (unknown_exact _)
    · intro d hd _; simp only [Option.some.injEq] at hd; subst hd; exact unknown_exact _
  | append hl hL hd =>
    obtain ⟨c, hc1, hc2⟩ := h.isDef hd
    refine ⟨h.out, ?_, ?_, fun _ => ⟨{ c with data := c.data ++ [b] }, by simp [hc1], hc2⟩⟩
    · intro d hd; simp only [hc1, Option.map_some, Option.some.injEq] at hd; subst hd
      exact e2m _ (data_exact hc2 _)
    · intro d hd _; simp only [hc1, Option.map_some, Option.some.injEq] at hd; subst hd; exact data_exact hc2 _
  | text hl hL hd =>
    refine ⟨hout2, ?_, ?_, fun _ => ⟨_, rfl, .inl rfl⟩⟩
    · intro d hd; simp only [Option.some.injEq] at hd; subst hd; exact e2m _ (text_exact _)
    · intro d hd _; simp only [Option.some.injEq] at hd; subst hd; exact text_exact _

theorem fixedInv {bs s} (h : PS.init.run bs = .ok s) : FixedInv s := by
  refine PS.run_induct (fun _ s => FixedInv s) ?_ ?_ bs s h
  · refine ⟨?_, by simp [PS.init], by simp [PS.init], by simp [PS.init]⟩
    intro c hc; simp only [PS.init, List.mem_singleton] at hc; subst hc
    intro n hn; simpa [beginPrintCmd, fixedCount] using hn
  · intro xs s b s' _ ih hs
    cases step_case hs with
    | push c c' hp hd hc hpu =>
      refine ⟨ih.out, ?_, by simp [hp, hd], by simp [hd]⟩
      intro d hd' n hn
      simp only [Option.some.injEq] at hd'; subst hd'
      have hk : fixedCount c.dataKind = some n := by rw [← (push_derived hpu).dataKind]; exact hn
      rcases push_fixed hk hpu with ⟨_, h1, h2⟩ | ⟨h1, _⟩
      · omega
      · simp at h1
    | reject c c' hp hd hc hpu s' hsc =>
      have hex : Exact c' := by
        intro n hn
        have hk : fixedCount c.dataKind = some n := by rw [← (push_derived hpu).dataKind]; exact hn
        rcases push_fixed hk hpu with ⟨h1, _⟩ | ⟨_, h1, h2⟩
        · simp at h1
        · rw [h1]; have := ih.cur c hc n hk; omega
      refine search_fixedInv (s := { s with cur := some c' }) ⟨ih.out, ?_, ?_, by simp [hd]⟩ ?_ hsc
      · intro d hd'; simp only [Option.some.injEq] at hd'; subst hd'
        exact fun n hn => Nat.le_of_eq (hex n hn)
      · intro d hd' _; simp only [Option.some.injEq] at hd'; subst hd'; exact hex
      · intro d hd'; simp only [Option.some.injEq] at hd'; subst hd'; exact hex
    | search hns s' hsc =>
      refine search_fixedInv ih ?_ hsc
      intro c hc
      apply ih.closed c hc
      by_cases hp : s.pend = []
      · right
        cases hd : s.isDef
        · exact absurd ⟨hp, hd, by simp [hc]⟩ hns
        · rfl
      · exact .inl hp

/-- C06.  A fixed-size command carries exactly its parameter bytes; only the command directly before End Print may
carry fewer. -/
theorem C06_fixed_arity {bytes : List Byte} {cmds : List Command} (h : parseEscPos bytes = .ok cmds) :
    (∀ i c n, cmds[i]? = some c → fixedCount c.dataKind = some n →
      c.data.length ≤ n ∧ (i + 2 ≠ cmds.length → c.data.length = n)) := by
  rw [parseEscPos_eq] at h
  rcases hx : PS.init.run bytes with e | s
  · rw [hx] at h; simp [Except.map] at h
  · rw [hx] at h
    simp only [Except.map, Except.ok.injEq] at h
    subst h
    have hi := fixedInv hx
    intro i c n hc hn
    have hend : Exact endPrintCmd := by intro n hn; simpa [endPrintCmd, fixedCount] using hn
    unfold PS.finish at hc ⊢
    have hl := emittedOpt_length s.cur
    have hcurA : ∀ c ∈ emittedOpt s.cur, AtMost c := by
      rcases hcu : s.cur with _ | d
      · simp [emittedOpt]
      · exact emitted_atMost (hi.cur d hcu)
    rw [List.append_assoc, List.getElem?_append] at hc
    split at hc
    · have := hi.out c (List.mem_of_getElem? hc) n hn
      exact ⟨by omega, fun _ => this⟩
    · rename_i h1
      rw [List.getElem?_append] at hc
      split at hc
      · rename_i h2
        refine ⟨hcurA c (List.mem_of_getElem? hc) n hn, ?_⟩
        intro h3
        simp only [List.length_append, List.length_cons, List.length_nil] at h3
        omega
      · have := List.mem_of_getElem? hc
        simp only [List.mem_singleton] at this; subst this
        have := hend n hn
        exact ⟨by omega, fun _ => this⟩

/-- truncated input: the last command is short -/
example : (parseEscPos [27, 36, 5]).map (fun l => l.map (fun c => (c.dataKind, c.data))) =
    .ok [(.empty, []), (.double, [5]), (.empty, [])] := by decide +kernel

end Thermal
