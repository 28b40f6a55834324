import Verif.Proofs.ParserStep
/-
Invariants of the parser.
-/
namespace Thermal
set_option linter.unusedSimpArgs false

/-- The handler was built by the same `new()`: same constructor, and equal for field-less handlers. -/
def Handler.sameClass : Handler → Handler → Prop
  | .unit a, .unit b => a = b
  | .subUnit a, .subUnit b => a = b
  | .charEffects _, .charEffects _ => True
  | .barcode _, .barcode _ => True
  | .bitImage _, .bitImage _ => True
  | .raster _, .raster _ => True
  | .sub s, .sub t => s.table = t.table ∧ s.isLarge = t.isLarge ∧ s.useM = t.useM
  | _, _ => False

theorem Handler.sameClass_refl (h : Handler) : h.sameClass h := by cases h <;> simp [sameClass]

theorem Handler.sameClass_trans {a b c : Handler} (h1 : a.sameClass b) (h2 : b.sameClass c) : a.sameClass c := by
  cases a <;> cases b <;> cases c <;> simp_all [sameClass]

/-- `c` is `base` after some calls of `push`: only data and handler fields differ. -/
structure Derived (base c : Command) : Prop where
  name : c.name = base.name
  commands : c.commands = base.commands
  kind : c.kind = base.kind
  dataKind : c.dataKind = base.dataKind
  handler : base.handler.sameClass c.handler

theorem Derived.refl (c : Command) : Derived c c := ⟨rfl, rfl, rfl, rfl, Handler.sameClass_refl _⟩

theorem Derived.trans {a b c : Command} (h1 : Derived a b) (h2 : Derived b c) : Derived a c :=
  ⟨h2.1.trans h1.1, h2.2.trans h1.2, h2.3.trans h1.3, h2.4.trans h1.4, Handler.sameClass_trans h1.5 h2.5⟩

/-- the sub-command a header selects, before its header bytes are stored -/
def SubState.select (s : SubState) (m id : Byte) : Option SubCmd :=
  if s.useM then detectKindUseM s.table.all m id s.subcommand
  else detectKind s.table.all id s.subcommand

/-- number of header bytes after the opcode -/
def SubState.metaLen (s : SubState) : Nat := if s.isLarge then 6 else 4

/-- the declared length in a header -/
def declared (d : List Byte) : Nat := if d.length = 6 then parseU32 d 0 else parseU16 d 0

/-- the two function bytes of a header -/
def metaM (d : List Byte) : Byte := d.getD (d.length - 2) 0
/-- the two function bytes of a header -/
def metaFn (d : List Byte) : Byte := d.getD (d.length - 1) 0

/-- the state after reading the header `d` -/
def SubState.parsed (s : SubState) (d : List Byte) : SubState :=
  { s with
    capacity := declared d - 2
    m := metaM d
    subcommandId := metaFn d
    subcommand := (s.select (metaM d) (metaFn d)).map (fun c => { c with commands := d })
    acceptData := true }

theorem parseMeta_eq (s : SubState) (d : List Byte) (hd : d.length = 4 ∨ d.length = 6) :
    s.parseMeta d = if 2 ≤ declared d then .ok (s.parsed d) else .error .overflow := by
  rcases hd with h | h
  · match d, h with
    | [a, b, m, f], _ =>
      by_cases hc : 2 ≤ parseU16 [a, b, m, f] 0
      · simp [SubState.parseMeta, bind, Except.bind, pure, Except.pure, subU, hc, getUnwrap, declared, metaM,
          metaFn, SubState.select, SubState.parsed]
      · simp [SubState.parseMeta, bind, Except.bind, pure, Except.pure, subU, hc, getUnwrap, declared, metaM,
          metaFn, SubState.select, SubState.parsed]
  · match d, h with
    | [a, b, x, y, m, f], _ =>
      by_cases hc : 2 ≤ parseU32 [a, b, x, y, m, f] 0
      · simp [SubState.parseMeta, bind, Except.bind, pure, Except.pure, subU, hc, getUnwrap, declared, metaM,
          metaFn, SubState.select, SubState.parsed]
      · simp [SubState.parseMeta, bind, Except.bind, pure, Except.pure, subU, hc, getUnwrap, declared, metaM,
          metaFn, SubState.select, SubState.parsed]

/-- the outcomes of a sub-command push -/
inductive SubPush (s : SubState) (d : List Byte) (b : Byte) : SubState × List Byte × Bool → Prop where
  | header (ha : s.acceptData = false) (hl : d.length < s.metaLen) : SubPush s d b (s, d ++ [b], true)
  | parsed (ha : s.acceptData = false) (hl : s.metaLen ≤ d.length) (hdec : 2 ≤ declared (d.take s.metaLen))
      : SubPush s d b ((s.parsed (d.take s.metaLen)).pushData [] b)
  | data (ha : s.acceptData = true) : SubPush s d b (s.pushData d b)

theorem metaLen_or (s : SubState) : s.metaLen = 4 ∨ s.metaLen = 6 := by
  unfold SubState.metaLen; split <;> simp

theorem sub_push_eq (s : SubState) (d : List Byte) (b : Byte) :
    s.push d b = if s.acceptData then .ok (s.pushData d b)
      else if d.length < s.metaLen then .ok (s, d ++ [b], true)
      else (s.parseMeta (d.take s.metaLen)).map (fun t => t.pushData [] b) := by
  unfold SubState.push
  have : (if s.isLarge = true then 6 else 4) = s.metaLen := rfl
  simp only [this]
  by_cases h : s.acceptData = true
  · simp [h, pure, Except.pure]
  · simp only [h]
    by_cases hl : d.length < s.metaLen
    · simp [hl, pure, Except.pure]
    · simp only [hl]
      rcases s.parseMeta (d.take s.metaLen) with e | t <;> rfl

theorem sub_push_error {s : SubState} {d b e} (h : s.push d b = .error e) :
    e = .overflow ∧ s.acceptData = false ∧ s.metaLen ≤ d.length ∧ declared (d.take s.metaLen) < 2 := by
  rw [sub_push_eq] at h
  split at h
  · simp at h
  · rename_i ha
    split at h
    · simp at h
    · rename_i hl
      have hlen : (d.take s.metaLen).length = 4 ∨ (d.take s.metaLen).length = 6 := by
        have := metaLen_or s
        simp only [List.length_take]; omega
      rw [parseMeta_eq _ _ hlen] at h
      split at h
      · simp [Except.map] at h
      · rename_i hdec
        simp only [Except.map, Except.error.injEq] at h
        exact ⟨h.symm, by simpa using ha, by omega, by omega⟩

theorem sub_push_case {s : SubState} {d b r} (h : s.push d b = .ok r) : SubPush s d b r := by
  rw [sub_push_eq] at h
  split at h
  · rename_i ha
    simp only [Except.ok.injEq] at h; subst h; exact .data ha
  · rename_i ha
    simp only [Bool.not_eq_true] at ha
    split at h
    · rename_i hl
      simp only [Except.ok.injEq] at h; subst h; exact .header ha hl
    · rename_i hl
      have hlen : (d.take s.metaLen).length = 4 ∨ (d.take s.metaLen).length = 6 := by
        have := metaLen_or s
        simp only [List.length_take]; omega
      rw [parseMeta_eq _ _ hlen] at h
      split at h
      · rename_i hdec
        simp only [Except.map, Except.ok.injEq] at h; subst h
        exact .parsed ha (by omega) hdec
      · simp [Except.map] at h

theorem pushData_class (s : SubState) (d b) :
    (s.pushData d b).1.table = s.table ∧ (s.pushData d b).1.isLarge = s.isLarge ∧
    (s.pushData d b).1.useM = s.useM ∧ (s.pushData d b).1.acceptData = s.acceptData ∧
    (s.pushData d b).1.capacity = s.capacity := by
  unfold SubState.pushData; repeat' split
  all_goals simp

theorem sub_push_class {s : SubState} {d b r} (h : s.push d b = .ok r) :
    r.1.table = s.table ∧ r.1.isLarge = s.isLarge ∧ r.1.useM = s.useM := by
  rcases sub_push_case h with ⟨_, _⟩ | ⟨_, _, _⟩ | ⟨_⟩
  · simp
  · have := pushData_class (s.parsed (d.take s.metaLen)) [] b
    exact ⟨this.1, this.2.1, this.2.2.1⟩
  · have := pushData_class s d b
    exact ⟨this.1, this.2.1, this.2.2.1⟩

theorem handler_push_class {h : Handler} {d b r} (hp : h.push d b = .ok r) : h.sameClass r.1 := by
  unfold Handler.push at hp
  split at hp
  all_goals simp only [pure, Except.pure, bind, Except.bind, Except.ok.injEq] at hp
  all_goals (try (subst hp; simp [Handler.sameClass]; done))
  split at hp
  · simp at hp
  · rename_i hs
    simp only [Except.ok.injEq] at hp; subst hp
    have := sub_push_class hs
    simp [Handler.sameClass, this]

theorem push_derived {c c' : Command} {b ok} (h : c.push b = .ok (c', ok)) : Derived c c' := by
  unfold Command.push at h
  repeat' split at h
  all_goals simp only [pure, Except.pure, bind, Except.bind, Except.ok.injEq, Prod.mk.injEq, reduceCtorEq] at h
  all_goals (try (obtain ⟨h, _⟩ := h; subst h))
  all_goals (try (constructor <;> simp [Handler.sameClass_refl]; done))
  all_goals
    split at h
    · simp at h
    · rename_i hs
      simp only [Except.ok.injEq, Prod.mk.injEq] at h
      obtain ⟨h, _⟩ := h; subst h
      have := handler_push_class hs
      constructor <;> simp [this]

/-- The open command descends from a table entry, Text or Unknown. -/
def FromTable (c : Command) : Prop :=
  (∃ base ∈ escPosCommands, Derived base c) ∨ Derived textCmd c ∨ Derived unknownCmd c

theorem FromTable.push {c c' : Command} {b ok} (hf : FromTable c) (h : c.push b = .ok (c', ok)) :
    FromTable c' := by
  have hd := push_derived h
  rcases hf with ⟨base, hb, h1⟩ | h1 | h1
  · exact .inl ⟨base, hb, h1.trans hd⟩
  · exact .inr (.inl (h1.trans hd))
  · exact .inr (.inr (h1.trans hd))

theorem FromTable.append {c : Command} (hf : FromTable c) (d) : FromTable { c with data := d } := by
  rcases hf with ⟨base, hb, h1⟩ | h1 | h1
  · exact .inl ⟨base, hb, ⟨h1.1, h1.2, h1.3, h1.4, h1.5⟩⟩
  · exact .inr (.inl ⟨h1.1, h1.2, h1.3, h1.4, h1.5⟩)
  · exact .inr (.inr ⟨h1.1, h1.2, h1.3, h1.4, h1.5⟩)

theorem fromTable_text (d) : FromTable { textCmd with data := d } := .inr (.inl ⟨rfl, rfl, rfl, rfl, rfl⟩)
theorem fromTable_unknown (d) : FromTable { unknownCmd with data := d } := .inr (.inr ⟨rfl, rfl, rfl, rfl, rfl⟩)

theorem PS.cur_fromTable {bs s} (h : PS.init.run bs = .ok s) : ∀ c, s.cur = some c → FromTable c := by
  refine PS.run_induct (fun _ s => ∀ c, s.cur = some c → FromTable c) ?_ ?_ bs s h
  · intro c hc; simp [PS.init] at hc
  · intro xs s b s' _ ih hs
    have key : ∀ (s : PS) (s' : PS), (∀ c, s.cur = some c → FromTable c) → SearchCase s b s' →
        ∀ c, s'.cur = some c → FromTable c := by
      intro s s' ih hsc
      cases hsc with
      | complete c hl =>
        intro d hd; simp only [Option.some.injEq] at hd; subst hd
        exact .inl ⟨_, (look_complete hl).1, Derived.refl _⟩
      | part hl => exact ih
      | lead hl hL =>
        intro d hd; simp only [Option.some.injEq] at hd; subst hd; exact fromTable_unknown _
      | append hl hL hd =>
        intro d hd
        simp only [Option.map_eq_some_iff] at hd
        obtain ⟨c, hc, rfl⟩ := hd
        exact (ih c hc).append _
      | text hl hL hd =>
        intro d hd; simp only [Option.some.injEq] at hd; subst hd; exact fromTable_text _
    cases step_case hs with
    | push c c' hp hd hc hpu =>
      intro d hd; simp only [Option.some.injEq] at hd; subst hd; exact (ih c hc).push hpu
    | reject c c' hp hd hc hpu s' hsc =>
      refine key _ _ ?_ hsc
      intro d hd; simp only [Option.some.injEq] at hd; subst hd; exact (ih c hc).push hpu
    | search hns s' hsc => exact key _ _ ih hsc

end Thermal
