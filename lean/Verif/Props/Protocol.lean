import Verif.Spec.Protocol
import Verif.Props.ParserStream
/-
C92: the commands of the protocol.
-/
namespace Thermal
open Spec

/-- The commands with a fixed number of parameters that the documentation gives otherwise: CAN (which is read only together with `@`), ESC D (as many
tab stops as there are, then NUL) and GS ( G (whose parameters say how many follow). -/
def otherwise : List (List Byte) := [[24, 64], [27, 68], [29, 40, 71]]

/-- The set of commands has exactly the commands of the protocol, with as many parameters, and the three others; each opcode is there once. -/
theorem protocol_set :
    (∀ row ∈ protocol, ∃ c ∈ escPosCommands, c.commands = row.1 ∧ paramCount c.dataKind = some row.2 ∧ c.data = []) ∧
    (∀ c ∈ escPosCommands, ∀ n, paramCount c.dataKind = some n → (c.commands, n) ∈ protocol ∨ c.commands ∈ otherwise) := by
  have k : ∀ c ∈ escPosCommands, (paramCount c.dataKind).all (fun n => decide ((c.commands, n) ∈ protocol ∨ c.commands ∈ otherwise)) = true := by
    decide +kernel
  refine ⟨by decide +kernel, fun c hc n hn => ?_⟩
  have := k c hc
  rw [hn] at this
  simpa using this

theorem streamBytes_append (as bs : List Item) : streamBytes (as ++ bs) = streamBytes as ++ streamBytes bs := List.flatMap_append ..

theorem streamCommands_append {as bs : List Item} (h : bs ≠ []) : streamCommands (as ++ bs) = as.flatMap Item.commands ++ streamCommands bs := by
  induction as with
  | nil => rfl
  | cons a as ih =>
    rw [List.cons_append, streamCommands, ih, List.flatMap_cons, List.append_assoc]
    intro e; simp [h] at e

theorem separated_append {as bs : List Item} {it : Item} (hi : it.isText = false) (ha : separated as) (hb : separated bs) :
    separated (as ++ it :: bs) := by
  have h1 : separated (it :: bs) := by
    cases bs with
    | nil => trivial
    | cons b bs => exact ⟨by simp [hi], hb⟩
  induction as with
  | nil => exact h1
  | cons a as ih =>
    cases as with
    | nil => exact ⟨by simp [hi], h1⟩
    | cons a' as => exact ⟨ha.1, ih ha.2⟩

/-- C92. Every command of the protocol is read with its documented number of parameters, wherever it stands in a stream of well-formed items: the
parameters that follow its opcode are its data, whatever their values, and the next byte begins something else. -/
theorem C92_protocol_partial {op : List Byte} {n : Nat} (hrow : (op, n) ∈ protocol) {args : List Byte} (hargs : args.length = n)
    {before after : List Item} (hb : ∀ it ∈ before, it.WF) (ha : ∀ it ∈ after, it.WF) (sb : separated before) (sa : separated after) :
    ∃ c : Command, c.commands = op ∧ c.data = args ∧
      parseEscPos (streamBytes before ++ op ++ args ++ streamBytes after) =
        .ok (beginPrintCmd :: (leading before ++ before.flatMap Item.commands ++ c :: streamCommands after ++ [endPrintCmd])) := by
  obtain ⟨c, hc, rfl, hp, _⟩ := protocol_set.1 _ hrow
  have hw : (Item.fixed c args).WF := ⟨hc, by rw [hp]; exact congrArg some hargs.symm⟩
  refine ⟨{ c with data := args }, rfl, rfl, ?_⟩
  have key := C08_stream (items := before ++ .fixed c args :: after) (by
    intro it hit
    simp only [List.mem_append, List.mem_cons] at hit
    rcases hit with h | rfl | h
    · exact hb it h
    · exact hw
    · exact ha it h) (separated_append rfl sb sa)
  have e1 : streamBytes (before ++ .fixed c args :: after) = streamBytes before ++ c.commands ++ args ++ streamBytes after := by
    rw [streamBytes_append, streamBytes, streamBytes, streamBytes, List.flatMap_cons]
    simp [Item.bytes]
  have e2 : leading (before ++ .fixed c args :: after) = leading before := by
    cases before <;> rfl
  have e3 : streamCommands (.fixed c args :: after) = { c with data := args } :: streamCommands after := by
    cases after <;> rfl
  rw [e1, e2, streamCommands_append (by simp), e3] at key
  rw [key]
  simp

/-- C92, ESC W with its eight parameters between two letters. -/
example : ((27 : Byte) :: [87], 8) ∈ protocol ∧
    (parseEscPos ([65] ++ [27, 87] ++ [1, 0, 27, 64, 10, 0, 29, 0] ++ [66])).map (fun l => l.map fun c => (c.commands, c.data)) =
      .ok [([], []), ([16, 27, 28, 29], []), ([], [65]), ([27, 87], [1, 0, 27, 64, 10, 0, 29, 0]), ([], [66]), ([], [])] := by
  refine ⟨by decide, by decide +kernel⟩

/-- C92, not all commands: CAN is dropped, ESC D takes two of the tab stops (the others and the NUL become text or are dropped), GS ( G does not take
the parameters it announces. -/
theorem C92_otherwise :
    (parseEscPos [10, 24, 66]).map (fun l => l.map fun c => (c.commands, c.data)) = .ok [([], []), ([10], []), ([], [66]), ([], [])] ∧
    (parseEscPos [27, 68, 8, 16, 32, 0, 65]).map (fun l => l.map fun c => (c.commands, c.data)) =
      .ok [([], []), ([27, 68], [8, 16]), ([], [32, 0, 65]), ([], [])] ∧
    (parseEscPos [29, 40, 71, 4, 0, 48, 1, 49, 50, 65]).map (fun l => l.map fun c => (c.commands, c.data)) =
      .ok [([], []), ([29, 40, 71], [4, 0, 48, 1]), ([], [49, 50, 65]), ([], [])] := by
  refine ⟨?_, ?_, ?_⟩ <;> decide +kernel

end Thermal
