import Verif.Props.Settings
import Verif.Spec.Stored
import Verif.Proofs.Ink
import Mathlib.Data.List.Forall2
import Verif.Proofs.Util
/-
C25, C26: the graphics memories and the print buffer over arbitrary histories.
-/
namespace Thermal
open Renderer
variable {σ Out : Type} {R : OutputRenderer σ Out} {ext : Ext}

/-! ### The map -/

theorem get_filter {m : GraphicsMap} {p : ImageRef → Bool} {k : ImageRef} :
    GraphicsMap.get (m.filter (fun e => p e.1)) k = if p k then m.get k else none := by
  unfold GraphicsMap.get
  induction m with
  | nil => simp
  | cons e m ih =>
    by_cases hp : p e.1
    · rw [List.filter_cons_of_pos (by simpa using hp)]
      by_cases hk : e.1 = k
      · subst hk; simp [hp]
      · simp only [List.find?_cons, hk, decide_false]; exact ih
    · rw [List.filter_cons_of_neg (by simpa using hp), ih]
      by_cases hk : e.1 = k
      · subst hk; simp [hp]
      · simp [hk]

theorem get_retain {m : GraphicsMap} {p : ImageRef → Bool} {k : ImageRef} :
    (m.retain p).get k = if p k then m.get k else none := get_filter

theorem get_remove {m : GraphicsMap} {j k : ImageRef} : (m.remove j).get k = if k = j then none else m.get k := by
  have := get_filter (m := m) (p := fun e => e ≠ j) (k := k)
  unfold GraphicsMap.remove
  rw [this]
  by_cases h : k = j <;> simp [h]

theorem get_insert {m : GraphicsMap} {j k : ImageRef} {v} : (m.insert j v).get k = if k = j then some v else m.get k := by
  have := get_remove (m := m) (j := j) (k := k)
  unfold GraphicsMap.insert
  unfold GraphicsMap.get at *
  by_cases h : k = j
  · subst h; simp
  · rw [if_neg h] at this ⊢
    rw [List.find?_cons]
    have hjk : ¬ j = k := fun h' => h h'.symm
    rw [show decide ((j, v).1 = k) = false from decide_eq_false hjk]
    exact this

/-! ### One command -/

/-- The key of a memory. -/
def memKey (m : Memory) (kc1 kc2 : Byte) : ImageRef := ⟨kc1, kc2, match m with | .nv => .disc | .download => .ram⟩

theorem memKey_inj {m m' : Memory} {a b a' b' : Byte} : memKey m a b = memKey m' a' b' ↔ m' = m ∧ a' = a ∧ b' = b := by
  cases m <;> cases m' <;> simp [memKey, eq_comm]

/-- Facts about the context kept by every command. -/
structure Fixed (c : Context) : Prop where
  colors : c.graphics.renderColors = defaultColors
  default : c.default = some defaultSettings

theorem writes_not_colors (cmd : Command) (h : cmd.handler ≠ .unit .initialize) : Setting.renderColors ∉ commandWrites cmd := by
  have h1 : ∀ h : Hid, h ≠ .initialize → Setting.renderColors ∉ applyWrites h := by intro h; cases h <;> decide
  have h2 : ∀ h : SubId, Setting.renderColors ∉ subWrites h := by intro h; cases h <;> decide
  have h3 : Setting.renderColors ∉ handlerWrites cmd.handler := by
    unfold handlerWrites; split
    · rename_i hh; exact h1 _ (fun he => h (by rw [hh, he]))
    · exact h2 _
    · decide
    · split
      · exact h2 _
      · decide
    · decide
  have h4 : ∀ h : Handler, Setting.renderColors ∉ deviceHandlerWrites h := by
    intro h; unfold deviceHandlerWrites; split <;> decide
  have h5 : Setting.renderColors ∉ penSettings := by decide
  unfold commandWrites
  split <;> simp [h3, h4, h5]

/-- What `ESC @` does when the command has its opcode. -/
theorem known_init_kind {c : Command} (h : Known c) (hc : c.commands = [27, 64]) : c.kind = .contextControl ∧ c.handler = .unit .initialize := by
  have key : ∀ base ∈ baseCommands ++ [beginPrintCmd, endPrintCmd], base.commands = [27, 64] →
      base.kind = .contextControl ∧ base.handler = .unit .initialize := by decide +kernel
  rcases h with ⟨base, hb, hk, hd⟩ | ⟨op, hdr, x, h1, h2, h3, h4, h5⟩
  · have e := key base hb (hd.commands ▸ hc)
    refine ⟨hd.kind.trans e.1, ?_⟩
    have := hd.handler
    rw [e.2] at this
    rcases h1 : c.handler <;> rw [h1] at this <;> simp [Handler.sameClass] at this
    rw [this]
  · rw [h1] at hc
    rcases h5 with ⟨⟨rfl, hl⟩ | ⟨rfl, hl⟩, hx⟩ | ⟨rfl, hl, hx⟩ <;> cases hc

theorem init_graphics {cmd : Command} (hk : Known cmd) (hc : cmd.commands = [27, 64]) {r r' : Renderer σ Out}
    (h : processCommand R ext r cmd = .ok r') (hf : Fixed r.context) : r'.context.graphics = defaultSettings.graphics := by
  obtain ⟨k1, k2⟩ := known_init_kind hk hc
  unfold processCommand at h
  simp only [k1, bind_ok] at h
  obtain ⟨r1, h1, c, h2, o, h3, h4⟩ := h
  have q := processText_quiet h1
  simp only [applyContext, k2, applyUnit, pure_ok] at h2
  simp only [getDevice, k2, getDeviceUnit, pure_ok] at h3
  subst h3 h2
  obtain ⟨_, _, _, _, hp⟩ := q.4
  have hd1 : r1.context.default = some defaultSettings := by rw [hp.1]; exact hf.2
  simp only [Option.getD_some, deviceCommands, deviceCommand, bind_ok, pure_ok, ok_ok] at h4
  obtain ⟨_, ⟨s, _, rfl⟩, rfl⟩ := h4
  unfold Context.reset
  rw [hd1]

theorem fixed_step {cmd : Command} (hk : Known cmd) {r r' : Renderer σ Out} (h : processCommand R ext r cmd = .ok r')
    (hf : Fixed r.context) : Fixed r'.context := by
  refine ⟨?_, ?_⟩
  · by_cases hh : cmd.handler = .unit .initialize
    · rw [init_graphics hk (known_initialize hk hh) h hf]; rfl
    · rw [processCommand_only h .renderColors (writes_not_colors cmd hh)]; exact hf.1
  · rw [processCommand_only h .defaults (writes_not_defaults cmd)]; exact hf.2

/-- The context after a sub-command that only changes settings. -/
theorem sub_context_step {cmd : Command} {x : SubId} (hk : cmd.kind = .context) (hh : cmd.handler = .subUnit x)
    {r r' : Renderer σ Out} (h : processCommand R ext r cmd = .ok r') :
    ∃ c, PenDown r.context c ∧ applySub ext x cmd.data c = .ok r'.context := by
  unfold processCommand at h
  simp only [hk, bind_ok, pure_ok] at h
  obtain ⟨r1, h1, c, h2, rfl⟩ := h
  refine ⟨r1.context, (processText_quiet h1).4, ?_⟩
  simpa only [applyContext, hh] using h2

theorem PenDown.graphics {c c' : Context} (h : PenDown c c') : c'.graphics.storedGraphics = c.graphics.storedGraphics ∧
    c'.graphics.bufferGraphics = c.graphics.bufferGraphics ∧ c'.graphics.renderColors = c.graphics.renderColors := by
  obtain ⟨_, _, _, _, rfl, _⟩ := h; exact ⟨rfl, rfl, rfl⟩

/-- The graphics memory after an operation. -/
def MemStep (op : StoreOp) (m m' : GraphicsMap) : Prop :=
  match op with
  | .define mem a b data => ∃ g, Defines data g ∧ ∀ mm k1 k2, m'.get (memKey mm k1 k2) =
      if mem = mm ∧ a = k1 ∧ b = k2 then some g else m.get (memKey mm k1 k2)
  | .delete mem a b => ∀ mm k1 k2, m'.get (memKey mm k1 k2) = if mem = mm ∧ a = k1 ∧ b = k2 then none else m.get (memKey mm k1 k2)
  | .deleteAll mem => ∀ mm k1 k2, m'.get (memKey mm k1 k2) = if mem = mm then none else m.get (memKey mm k1 k2)
  | .reset => m' = []
  | .other => m' = m

theorem defineRaster_step {mem : Memory} {st : ImageRefStorage} (hst : ∀ a b, memKey mem a b = ⟨a, b, st⟩) {data : List Byte} {c c' : Context}
    (hc : c.graphics.renderColors = defaultColors) (h : applyDefineRaster st data c = .ok c') :
    MemStep (defineOp mem data) c.graphics.storedGraphics c'.graphics.storedGraphics := by
  unfold applyDefineRaster at h
  match data, h with
  | a :: kc1 :: kc2 :: b :: xl :: xh :: yl :: yh :: d, h =>
    rw [if_neg (by simp)] at h
    simp only [bind_ok, pure_ok] at h
    obtain ⟨g, h1, rfl⟩ := h
    refine ⟨g, ⟨a, kc1, kc2, b, xl, xh, yl, yh, d, rfl, ?_⟩, ?_⟩
    · rw [hc] at h1
      rw [← h1]
      simp only [parseU16_eq, Nat.mul_comm _ 256]
      rfl
    · intro mm k1 k2
      simp only [Context.modGraphics, get_insert]
      rw [show (⟨getOr (a :: kc1 :: kc2 :: b :: xl :: xh :: yl :: yh :: d) 1 0,
        getOr (a :: kc1 :: kc2 :: b :: xl :: xh :: yl :: yh :: d) 2 0, st⟩ : ImageRef) = memKey mem kc1 kc2 from (hst _ _).symm]
      simp only [memKey_inj]
  | [], h | [_], h | [_, _], h | [_, _, _], h | [_, _, _, _], h | [_, _, _, _, _], h | [_, _, _, _, _, _], h | [_, _, _, _, _, _, _], h =>
    rw [if_pos (by simp)] at h
    rw [pure_ok] at h; subst h; rfl


theorem defineColumn_eq {st : ImageRefStorage} {data : List Byte} {c c' : Context} (h : applyDefineColumn st data c = .ok c') :
    applyDefineRaster st data c = .ok c' := by
  unfold applyDefineColumn at h
  match data, h with
  | a :: kc1 :: kc2 :: b :: xl :: xh :: yl :: yh :: d, h =>
    unfold applyDefineRaster
    rw [if_neg (by simp)]
    rw [← h]
    have e : slice (a :: kc1 :: kc2 :: b :: xl :: xh :: yl :: yh :: d) 8 (a :: kc1 :: kc2 :: b :: xl :: xh :: yl :: yh :: d).length = .ok d := by
      unfold slice
      simp
    rw [e]; rfl
  | [], h | [_], h | [_, _], h | [_, _, _], h | [_, _, _, _], h | [_, _, _, _, _], h | [_, _, _, _, _, _], h | [_, _, _, _, _, _, _], h =>
    simp [getUnwrap, slice, bind, Except.bind] at h

theorem defineColumn_step {mem : Memory} {st : ImageRefStorage} (hst : ∀ a b, memKey mem a b = ⟨a, b, st⟩) {data : List Byte} {c c' : Context}
    (hc : c.graphics.renderColors = defaultColors) (h : applyDefineColumn st data c = .ok c') :
    MemStep (defineOp mem data) c.graphics.storedGraphics c'.graphics.storedGraphics :=
  defineRaster_step hst hc (defineColumn_eq h)


theorem delete_step {mem : Memory} {st : ImageRefStorage} (hst : ∀ a b, memKey mem a b = ⟨a, b, st⟩) {data : List Byte} {c c' : Context}
    (h : (match ImageRef.fromData data st with
      | some k => (pure (c.modGraphics fun g => { g with storedGraphics := g.storedGraphics.remove k }) : Rs Context)
      | none => pure c) = .ok c') :
    MemStep (deleteOp mem data) c.graphics.storedGraphics c'.graphics.storedGraphics := by
  match data, h with
  | a :: b :: d, h =>
    simp only [ImageRef.fromData, pure_ok] at h
    subst h
    intro mm k1 k2
    simp only [Context.modGraphics, get_remove]
    rw [← hst]
    simp only [memKey_inj]
  | [], h => simp only [ImageRef.fromData, pure_ok] at h; subst h; rfl
  | [_], h => simp only [ImageRef.fromData, pure_ok] at h; subst h; rfl

theorem deleteAll_step {mem : Memory} {st : ImageRefStorage}
    (hne : ∀ mm a b, (memKey mm a b).storage = st ↔ mem = mm) {c : Context} :
    MemStep (.deleteAll mem) c.graphics.storedGraphics
      (c.modGraphics fun g => { g with storedGraphics := g.storedGraphics.retain (fun k => k.storage ≠ st) }).graphics.storedGraphics := by
  intro mm k1 k2
  simp only [Context.modGraphics, get_retain, decide_not, Bool.not_eq_true', decide_eq_false_iff_not, hne]
  by_cases h : mem = mm <;> simp [h]

theorem keys_of_storage :
    ((∀ a b, memKey .nv a b = ⟨a, b, .disc⟩) ∧ ∀ a b, memKey .download a b = ⟨a, b, .ram⟩) ∧
    (∀ mm a b, (memKey mm a b).storage = .disc ↔ Memory.nv = mm) ∧ (∀ mm a b, (memKey mm a b).storage = .ram ↔ Memory.download = mm) := by
  refine ⟨⟨fun _ _ => rfl, fun _ _ => rfl⟩, ?_, ?_⟩ <;> intro mm a b <;> cases mm <;> simp [memKey]

/-- The operation of a graphics function. -/
def graphicsOp (fn : Option Nat) (data : List Byte) : StoreOp :=
  match fn with
  | some 65 => .deleteAll .nv
  | some 66 => deleteOp .nv data
  | some 67 | some 68 => defineOp .nv data
  | some 81 => .deleteAll .download
  | some 82 => deleteOp .download data
  | some 83 | some 84 => defineOp .download data
  | _ => .other

theorem stored_same {cmd : Command} {r r' : Renderer σ Out} (h : processCommand R ext r cmd = .ok r')
    (hw : Setting.storedGraphics ∉ commandWrites cmd) : MemStep .other r.context.graphics.storedGraphics r'.context.graphics.storedGraphics :=
  processCommand_only h .storedGraphics hw

theorem graphicsKind_step {cmd : Command} {fn : Byte} {x : SubCmd} (hx : Spec.graphicsFunction fn = some x) (hk : cmd.kind = x.kind)
    (hh : cmd.handler = .subUnit x.id) {r r' : Renderer σ Out} (h : processCommand R ext r cmd = .ok r') (hf : Fixed r.context) :
    MemStep (graphicsOp (some fn.toNat) cmd.data) r.context.graphics.storedGraphics r'.context.graphics.storedGraphics := by
  obtain ⟨⟨k1, k2⟩, k3, k4⟩ := keys_of_storage
  have hctx : x.kind = .context → ∃ c, PenDown r.context c ∧ applySub ext x.id cmd.data c = .ok r'.context :=
    fun e => sub_context_step (hk.trans e) hh h
  have hsame : Setting.storedGraphics ∉ subCommandWrites x →
      MemStep .other r.context.graphics.storedGraphics r'.context.graphics.storedGraphics :=
    fun e => stored_same h (by rw [subUnit_writes hk hh]; exact e)
  unfold Spec.graphicsFunction at hx
  split at hx <;> first
    | (cases hx; done)
    | (rename_i hn
       rw [hn]
       obtain rfl := Option.some.inj hx
       first
         | exact hsame (by decide)
         | (obtain ⟨c, hp, ha⟩ := hctx rfl
            obtain ⟨e1, e2, e3⟩ := hp.graphics
            rw [← e1]
            first
              | exact defineRaster_step k1 (e3.trans hf.1) ha
              | exact defineRaster_step k2 (e3.trans hf.1) ha
              | exact defineColumn_step k1 (e3.trans hf.1) ha
              | exact defineColumn_step k2 (e3.trans hf.1) ha
              | exact delete_step k1 ha
              | exact delete_step k2 ha
              | (have ha := Except.ok.inj ha
                 rw [← ha]
                 first | exact deleteAll_step k3 | exact deleteAll_step k4)))

theorem base_not_stored : ∀ base ∈ baseCommands ++ [beginPrintCmd, endPrintCmd], base.commands ≠ [27, 64] → base.kind ≠ .subcommand →
    Setting.storedGraphics ∉ commandWrites base ∧ Setting.bufferGraphics ∉ commandWrites base ∧ graphicsFn base.commands = none := by
  decide +kernel

theorem code2d_not_stored {m fn : Byte} {x : SubCmd} (h : Spec.code2dImplemented m fn = some x) :
    Setting.storedGraphics ∉ subCommandWrites x ∧ Setting.bufferGraphics ∉ subCommandWrites x := by
  have key : ∀ d < 7, ∀ n < 256, ∀ x ∈ (Spec.code2dImplemented (UInt8.ofNat (48 + d)) (UInt8.ofNat n)).toList,
      Setting.storedGraphics ∉ subCommandWrites x ∧ Setting.bufferGraphics ∉ subCommandWrites x := by decide +kernel
  obtain ⟨h1, h2⟩ := code2dImplemented_range h
  have := key (m.toNat - 48) (by omega) fn.toNat (UInt8.toNat_lt fn)
  rw [show 48 + (m.toNat - 48) = m.toNat by omega, UInt8.ofNat_toNat, UInt8.ofNat_toNat, h] at this
  exact this x (by simp)

/-- The kinds of commands of a job, by what they do to the graphics memories. -/
theorem known_graphics {cmd : Command} (h : Known cmd) :
    cmd.commands = [27, 64] ∨
    (cmd.commands ≠ [27, 64] ∧ graphicsFn cmd.commands = none ∧ Setting.storedGraphics ∉ commandWrites cmd ∧
      Setting.bufferGraphics ∉ commandWrites cmd) ∨
    (cmd.commands ≠ [27, 64] ∧ ∃ fn x, graphicsFn cmd.commands = some fn.toNat ∧ Spec.graphicsFunction fn = some x ∧ cmd.kind = x.kind ∧
      cmd.handler = .subUnit x.id) := by
  rcases h with ⟨base, hb, hk, hd⟩ | ⟨op, hdr, x, h1, h2, h3, h4, h5⟩
  · by_cases hi : base.commands = [27, 64]
    · exact .inl (hd.commands.trans hi)
    · obtain ⟨a, b, c⟩ := base_not_stored base hb hi hk
      right; left
      rw [derived_writes hb hk hd, hd.commands]
      exact ⟨hi, c, a, b⟩
  · right
    rcases h5 with ⟨⟨rfl, hl⟩ | ⟨rfl, hl⟩, hx⟩ | ⟨rfl, hl, hx⟩
    · match hdr, hl with
      | [a, b, m, fn], _ => right; rw [h1]; exact ⟨by simp, fn, x, rfl, hx, h2, h4⟩
    · match hdr, hl with
      | [a, b, p, q, m, fn], _ => right; rw [h1]; exact ⟨by simp, fn, x, rfl, hx, h2, h4⟩
    · match hdr, hl with
      | [a, b, m, fn], _ =>
        left
        rw [h1, subUnit_writes h2 h4]
        exact ⟨by simp, rfl, code2d_not_stored hx⟩

theorem stored_step {cmd : Command} (hk : Known cmd) {r r' : Renderer σ Out} (h : processCommand R ext r cmd = .ok r')
    (hf : Fixed r.context) : MemStep (storeOp cmd) r.context.graphics.storedGraphics r'.context.graphics.storedGraphics := by
  unfold storeOp
  rcases known_graphics hk with h1 | ⟨h1, h2, h3, _⟩ | ⟨h1, fn, x, h2, h3, h4, h5⟩
  · rw [if_pos h1]
    show r'.context.graphics.storedGraphics = []
    rw [init_graphics hk h1 h hf]; rfl
  · rw [if_neg h1, h2]
    exact stored_same h h3
  · rw [if_neg h1, h2]
    exact graphicsKind_step h3 h4 h5 h hf

/-- The contents of the memories after a history. -/
def Holds (history : List StoreOp) (m : GraphicsMap) : Prop :=
  ∀ mem a b, match lastDefined mem a b history with
    | some data => ∃ g, m.get (memKey mem a b) = some g ∧ Defines data g
    | none => m.get (memKey mem a b) = none

theorem lastDefined_snoc {m a b op} {h : List StoreOp} : lastDefined m a b (h ++ [op]) =
    match op with
    | .define m' a' b' data => if m' = m ∧ a' = a ∧ b' = b then some data else lastDefined m a b h
    | .delete m' a' b' => if m' = m ∧ a' = a ∧ b' = b then none else lastDefined m a b h
    | .deleteAll m' => if m' = m then none else lastDefined m a b h
    | .reset => none
    | .other => lastDefined m a b h := by
  unfold lastDefined; rw [List.foldl_append]; cases op <;> rfl

theorem holds_step {h : List StoreOp} {op : StoreOp} {m m' : GraphicsMap} (hm : Holds h m) (hs : MemStep op m m') : Holds (h ++ [op]) m' := by
  intro mem a b
  have hmm := hm mem a b
  rw [lastDefined_snoc]
  cases op with
  | define mem' a' b' data =>
    obtain ⟨g, hg, hget⟩ := hs
    rw [hget mem a b]
    simp only
    by_cases he : mem' = mem ∧ a' = a ∧ b' = b
    · rw [if_pos he, if_pos he]; exact ⟨g, rfl, hg⟩
    · rw [if_neg he, if_neg he]; exact hmm
  | delete mem' a' b' =>
    rw [hs mem a b]
    simp only
    by_cases he : mem' = mem ∧ a' = a ∧ b' = b
    · rw [if_pos he, if_pos he]
    · rw [if_neg he, if_neg he]; exact hmm
  | deleteAll mem' =>
    rw [hs mem a b]
    simp only
    by_cases he : mem' = mem
    · rw [if_pos he, if_pos he]
    · rw [if_neg he, if_neg he]; exact hmm
  | reset => rw [show m' = [] from hs]; rfl
  | other => rw [show m' = m from hs]; exact hmm

theorem fixed_new {s : σ} : Fixed (Renderer.new (Out := Out) s).context := ⟨rfl, rfl⟩

theorem stored_history {cmds : List Command} (hp : ∀ c ∈ cmds, Known c) {h : List StoreOp} {r r' : Renderer σ Out}
    (hr : processCommands R ext cmds r = .ok r') (hf : Fixed r.context) (hh : Holds h r.context.graphics.storedGraphics) :
    Fixed r'.context ∧ Holds (h ++ cmds.map storeOp) r'.context.graphics.storedGraphics := by
  induction cmds generalizing r h with
  | nil => simp only [processCommands, ok_ok] at hr; subst hr; simpa using ⟨hf, hh⟩
  | cons d ds ih =>
    simp only [processCommands, bind_ok] at hr
    obtain ⟨r1, h1, h2⟩ := hr
    have a := stored_step (hp d (by simp)) h1 hf
    have := ih (fun c hc => hp c (List.mem_cons_of_mem _ hc)) h2 (fixed_step (hp d (by simp)) h1 hf) (holds_step hh a)
    simpa using this


/-- The function number of "print" for a memory. -/
def printFn : Memory → Nat
  | .nv => 69
  | .download => 85

/-- A function number determines the function. -/
theorem graphicsFn_print {cmd : Command} (hk : Known cmd) {n : Nat} (hn : graphicsFn cmd.commands = some n) :
    ∃ fn x, fn.toNat = n ∧ Spec.graphicsFunction fn = some x ∧ cmd.kind = x.kind ∧ cmd.handler = .subUnit x.id := by
  rcases known_graphics hk with h1 | ⟨h1, h2, _⟩ | ⟨h1, fn, x, h2, h3, h4, h5⟩
  · rw [h1] at hn; cases hn
  · rw [h2] at hn; cases hn
  · rw [h2] at hn; exact ⟨fn, x, Option.some.inj hn, h3, h4, h5⟩

/-- C25: after any history of commands of print jobs, printing the graphic `kc1 kc2` of a memory prints the pending text
and then the graphic that was last defined for this key in this memory and has not been deleted since (by a deletion of
this key, of the whole memory, or by `ESC @`), and nothing else; operations on the other memory play no role. -/
theorem C25_print_stored {s : σ} {cmds : List Command} (hp : ∀ c ∈ cmds, Parsed c) {r : Renderer σ Out}
    (hr : processCommands R ext cmds (Renderer.new s) = .ok r) {cmd : Command} (hc : Parsed cmd) {mem : Memory}
    (hfn : graphicsFn cmd.commands = some (printFn mem)) {kc1 kc2 : Byte} {rest : List Byte} (hd : cmd.data = kc1 :: kc2 :: rest) :
    ∃ shown : Option GraphicsCommand,
      (match lastDefined mem kc1 kc2 (cmds.map storeOp) with
        | some data => ∃ g, shown = some g ∧ Defines data g
        | none => shown = none) ∧
      processCommand R ext r cmd = (do let r1 ← processText R r; processGraphicsOpt R r1 shown) := by
  have hh := stored_history (fun c hc => (hp c hc).known) hr fixed_new (h := []) (by intro m a b; rfl)
  have hget := hh.2 mem kc1 kc2
  rw [List.nil_append] at hget
  refine ⟨r.context.graphics.storedGraphics.get (memKey mem kc1 kc2), ?_, ?_⟩
  · cases hl : lastDefined mem kc1 kc2 (cmds.map storeOp) <;> rw [hl] at hget <;> exact hget
  · obtain ⟨fn, x, e1, e2, e3, e4⟩ := graphicsFn_print hc.known hfn
    have key : x.kind = .graphics ∧ ∀ (c : Context), subGraphics x.id cmd.data c = .ok (c.graphics.storedGraphics.get (memKey mem kc1 kc2)) ∧
        getDevice cmd c = .ok none := by
      unfold Spec.graphicsFunction at e2
      rw [e1, hd] at *
      cases mem <;> simp only [printFn] at e2 <;> obtain rfl := Option.some.inj e2 <;> refine ⟨rfl, fun c => ⟨?_, ?_⟩⟩ <;>
        first | rfl | (unfold getDevice; rw [e4]; rfl)
    obtain ⟨k1, k2⟩ := key
    unfold processCommand
    rw [e3, k1]
    simp only
    cases h1 : processText R r with
    | error e => rfl
    | ok r1 =>
      have hg := (processText_quiet h1).4.graphics.1
      simp only [bind, Except.bind]
      rw [show getGraphics ext cmd r1.context = .ok (r.context.graphics.storedGraphics.get (memKey mem kc1 kc2)) by
        unfold getGraphics; rw [e4]; rw [← hg]; exact (k2 r1.context).1]
      simp only
      cases h2 : processGraphicsOpt R r1 (r.context.graphics.storedGraphics.get (memKey mem kc1 kc2)) with
      | error e => rfl
      | ok r2 =>
        simp only [(k2 r2.context).2]
        rfl

/-! ### The print buffer -/

/-- The contents of the print buffer after an operation. -/
def BufStep (op : BufferOp) (b b' : List GraphicsCommand) : Prop :=
  match op with
  | .store column data => ∃ g, Buffers (column, data) g ∧ b' = b ++ [g]
  | .empty => b' = []
  | .other => b' = b

theorem storeBuffer_step {column : Bool} {data : List Byte} {c c' : Context} (hc : c.graphics.renderColors = defaultColors)
    (h : applyStoreBuffer column data c = .ok c') :
    BufStep (.store column data) c.graphics.bufferGraphics c'.graphics.bufferGraphics := by
  unfold applyStoreBuffer at h
  split at h
  · rename_i hl
    rw [pure_ok] at h; subst h
    exact ⟨_, .inr ⟨hl, _, rfl⟩, rfl⟩
  · rename_i hl
    have h : ∃ body, slice data 8 data.length = .ok body ∧ ∃ g,
        (if column then imageFromColumn (parseU16 data 4) (parseU16 data 6) (getOr data 1 0, getOr data 2 0)
          (c.graphics.renderColors.colorFor (getOr data 3 0)) .block body
        else imageFromRaster (parseU16 data 4) (parseU16 data 6) (getOr data 1 0, getOr data 2 0)
          (c.graphics.renderColors.colorFor (getOr data 3 0)) .block body true) = .ok g ∧
        c.modGraphics (fun x => { x with bufferGraphics := x.bufferGraphics ++ [g] }) = c' := by
      rw [bind_ok] at h
      obtain ⟨body, h1, h⟩ := h
      refine ⟨body, h1, ?_⟩
      cases column
      · rw [if_neg (by decide), bind_ok] at h
        obtain ⟨g, h2, h⟩ := h
        exact ⟨g, h2, Except.ok.inj h⟩
      · rw [if_pos rfl, bind_ok] at h
        obtain ⟨g, h2, h⟩ := h
        exact ⟨g, h2, Except.ok.inj h⟩
    obtain ⟨body, h1, g, h2, rfl⟩ := h
    refine ⟨g, .inl ?_, rfl⟩
    match data, h1, h2, hl with
    | a :: bx :: bY :: d3 :: xl :: xh :: yl :: yh :: d, h1, h2, hl =>
      refine ⟨a, bx, bY, d3, xl, xh, yl, yh, d, rfl, ?_⟩
      have e : body = d := by
        unfold slice at h1
        simp at h1
        exact h1.symm
      subst e
      rw [hc] at h2
      rw [← h2]
      simp only [parseU16_eq, Nat.mul_comm _ 256, colorFor_ink]
      cases column <;> rfl
    | [], h1, h2, hl => simp at hl
    | [_], h1, h2, hl => simp at hl
    | [_, _], h1, h2, hl => simp at hl
    | [_, _, _], h1, h2, hl => simp at hl
    | [_, _, _, _], h1, h2, hl => simp [slice] at h1
    | [_, _, _, _, _], h1, h2, hl => simp [slice] at h1
    | [_, _, _, _, _, _], h1, h2, hl => simp [slice] at h1
    | [_, _, _, _, _, _, _], h1, h2, hl => simp [slice] at h1

theorem printBuffer_step {cmd : Command} (hk : cmd.kind = .graphics) (hh : cmd.handler = .subUnit .printBuffer)
    {r r' : Renderer σ Out} (h : processCommand R ext r cmd = .ok r') : r'.context.graphics.bufferGraphics = [] := by
  unfold processCommand at h
  simp only [hk, bind_ok] at h
  obtain ⟨r1, h1, g, h2, r2, h3, o, h4, h5⟩ := h
  simp only [getDevice, hh, pure_ok] at h4
  subst h4
  simp only [Option.getD_some, deviceCommands, deviceCommand, bind_ok, pure_ok, ok_ok] at h5
  obtain ⟨_, ⟨s, _, rfl⟩, rfl⟩ := h5
  rfl

/-- The operation of a graphics function on the buffer. -/
def graphicsBufferOp (fn : Option Nat) (data : List Byte) : BufferOp :=
  match fn with
  | some 112 => .store false data
  | some 113 => .store true data
  | some 2 | some 50 => .empty
  | _ => .other

theorem buffer_same {cmd : Command} {r r' : Renderer σ Out} (h : processCommand R ext r cmd = .ok r')
    (hw : Setting.bufferGraphics ∉ commandWrites cmd) : BufStep .other r.context.graphics.bufferGraphics r'.context.graphics.bufferGraphics :=
  processCommand_only h .bufferGraphics hw

theorem graphics_buffer_step {cmd : Command} {fn : Byte} {x : SubCmd} (hx : Spec.graphicsFunction fn = some x) (hk : cmd.kind = x.kind)
    (hh : cmd.handler = .subUnit x.id) {r r' : Renderer σ Out} (h : processCommand R ext r cmd = .ok r') (hf : Fixed r.context) :
    BufStep (graphicsBufferOp (some fn.toNat) cmd.data) r.context.graphics.bufferGraphics r'.context.graphics.bufferGraphics := by
  have hctx : x.kind = .context → ∃ c, PenDown r.context c ∧ applySub ext x.id cmd.data c = .ok r'.context :=
    fun e => sub_context_step (hk.trans e) hh h
  have hsame : Setting.bufferGraphics ∉ subCommandWrites x →
      BufStep .other r.context.graphics.bufferGraphics r'.context.graphics.bufferGraphics :=
    fun e => buffer_same h (by rw [subUnit_writes hk hh]; exact e)
  unfold Spec.graphicsFunction at hx
  split at hx <;> first
    | (cases hx; done)
    | (rename_i hn
       rw [hn]
       obtain rfl := Option.some.inj hx
       first
         | exact hsame (by decide)
         | exact printBuffer_step hk hh h
         | (obtain ⟨c, hp, ha⟩ := hctx rfl
            obtain ⟨e1, e2, e3⟩ := hp.graphics
            rw [← e2]
            exact storeBuffer_step (e3.trans hf.1) ha))

theorem buffer_step {cmd : Command} (hk : Known cmd) {r r' : Renderer σ Out} (h : processCommand R ext r cmd = .ok r')
    (hf : Fixed r.context) : BufStep (bufferOp cmd) r.context.graphics.bufferGraphics r'.context.graphics.bufferGraphics := by
  unfold bufferOp
  rcases known_graphics hk with h1 | ⟨h1, h2, _, h3⟩ | ⟨h1, fn, x, h2, h3, h4, h5⟩
  · rw [if_pos h1]
    show r'.context.graphics.bufferGraphics = []
    rw [init_graphics hk h1 h hf]; rfl
  · rw [if_neg h1, h2]
    exact buffer_same h h3
  · rw [if_neg h1, h2]
    exact graphics_buffer_step h3 h4 h5 h hf

theorem buffered_snoc {h : List BufferOp} {op} : buffered (h ++ [op]) =
    match op with
    | .store column data => buffered h ++ [(column, data)]
    | .empty => []
    | .other => buffered h := by
  unfold buffered; rw [List.foldl_append]; cases op <;> rfl

theorem buffered_step {h : List BufferOp} {op : BufferOp} {b b' : List GraphicsCommand} (hm : List.Forall₂ Buffers (buffered h) b)
    (hs : BufStep op b b') : List.Forall₂ Buffers (buffered (h ++ [op])) b' := by
  rw [buffered_snoc]
  cases op with
  | store column data =>
    obtain ⟨g, hg, rfl⟩ := hs
    exact List.rel_append hm (.cons hg .nil)
  | empty => rw [show b' = [] from hs]; exact .nil
  | other => rw [show b' = b from hs]; exact hm

theorem buffer_history {cmds : List Command} (hp : ∀ c ∈ cmds, Known c) {h : List BufferOp} {r r' : Renderer σ Out}
    (hr : processCommands R ext cmds r = .ok r') (hf : Fixed r.context)
    (hh : List.Forall₂ Buffers (buffered h) r.context.graphics.bufferGraphics) :
    Fixed r'.context ∧ List.Forall₂ Buffers (buffered (h ++ cmds.map bufferOp)) r'.context.graphics.bufferGraphics := by
  induction cmds generalizing r h with
  | nil => simp only [processCommands, ok_ok] at hr; subst hr; simpa using ⟨hf, hh⟩
  | cons d ds ih =>
    simp only [processCommands, bind_ok] at hr
    obtain ⟨r1, h1, h2⟩ := hr
    have a := buffer_step (hp d (by simp)) h1 hf
    have := ih (fun c hc => hp c (List.mem_cons_of_mem _ hc)) h2 (fixed_step (hp d (by simp)) h1 hf) (buffered_step hh a)
    simpa using this

theorem imageFromRaster_kind {w h st color flow data bits g} (hg : imageFromRaster w h st color flow data bits = .ok g) :
    (∃ m, g = .error m) ∨ ∃ i, g = .image i := by
  unfold imageFromRaster at hg
  simp only [bind_ok] at hg
  obtain ⟨size, _, hg⟩ := hg
  generalize (if bits = true then unpackBytes data w h else data) = u at hg
  by_cases h1 : u.length ≠ size
  · rw [if_pos h1, pure_ok] at hg; exact .inl ⟨_, hg.symm⟩
  · rw [if_neg h1] at hg
    by_cases h2 : st.1 > 1 ∨ st.2 > 1
    · rw [if_pos h2] at hg
      simp only [bind_ok, pure_ok] at hg
      obtain ⟨⟨a, b, c⟩, _, hg⟩ := hg
      exact .inr ⟨_, hg.symm⟩
    · rw [if_neg h2] at hg
      exact .inr ⟨_, (Except.ok.inj hg).symm⟩

theorem Buffers.kind {e g} (h : Buffers e g) : (∃ m, g = .error m) ∨ ∃ i, g = .image i := by
  rcases h with ⟨_, _, _, _, _, _, _, _, _, _, hg⟩ | ⟨_, m, rfl⟩
  · split at hg
    · unfold imageFromColumn at hg
      simp only [bind_ok] at hg
      obtain ⟨_, _, hg⟩ := hg
      exact imageFromRaster_kind hg
    · exact imageFromRaster_kind hg
  · exact .inl ⟨m, rfl⟩

theorem bufferLayers_spec {gs : List GraphicsCommand} (h : ∀ g ∈ gs, (∃ m, g = .error m) ∨ ∃ i, g = .image i) :
    (∃ before msg after, gs = before ++ .error msg :: after ∧ (∀ g ∈ before, ∀ m, g ≠ .error m) ∧ bufferLayers gs = .error (.error msg)) ∨
    ∃ images, gs = images.map .image ∧ bufferLayers gs = .ok images := by
  induction gs with
  | nil => exact .inr ⟨[], rfl, rfl⟩
  | cons g gs ih =>
    rcases h g (by simp) with ⟨m, rfl⟩ | ⟨i, rfl⟩
    · exact .inl ⟨[], m, gs, rfl, by simp, rfl⟩
    · rcases ih (fun g hg => h g (List.mem_cons_of_mem _ hg)) with ⟨b, m, a, rfl, h1, h2⟩ | ⟨is, rfl, h2⟩
      · refine .inl ⟨.image i :: b, m, a, rfl, ?_, by simp only [bufferLayers, h2]; rfl⟩
        intro g hg m
        rcases List.mem_cons.1 hg with rfl | hg
        · simp
        · exact h1 g hg m
      · exact .inr ⟨i :: is, rfl, by simp only [bufferLayers, h2]; rfl⟩

theorem printBuffer_shows {c : Context} (h : ∀ g ∈ c.graphics.bufferGraphics, (∃ m, g = .error m) ∨ ∃ i, g = .image i)
    {shown} (hs : printBufferGraphics c = .ok shown) : ShowsBuffer c.graphics.bufferGraphics shown := by
  unfold printBufferGraphics at hs
  rcases bufferLayers_spec h with ⟨b, m, a, h1, h2, h3⟩ | ⟨is, h1, h2⟩
  · rw [h3] at hs
    simp only [pure_ok] at hs
    exact .inl ⟨b, m, a, h1, h2, hs.symm⟩
  · rw [h2] at hs
    cases is with
    | nil => simp only [pure_ok] at hs; exact .inr (.inl ⟨h1, hs.symm⟩)
    | cons i is =>
      simp only [bind_ok] at hs
      obtain ⟨rr, h3, h4⟩ := hs
      refine .inr (.inr ⟨i :: is, h1, by simp, rr, h3, ?_⟩)
      cases rr with
      | ok i => simp only [pure_ok] at h4; exact .inl ⟨i, rfl, h4.symm⟩
      | error m => simp only [pure_ok] at h4; exact .inr ⟨m, _, rfl, h4.symm⟩

/-- C26: after any history of commands of print jobs, printing the buffer prints the pending text and then what was stored
since the buffer was last printed (or since `ESC @`), in the order in which it was stored, and leaves the buffer empty. -/
theorem C26_print_buffer {s : σ} {cmds : List Command} (hp : ∀ c ∈ cmds, Parsed c) {r r' : Renderer σ Out}
    (hr : processCommands R ext cmds (Renderer.new s) = .ok r) {cmd : Command} (hc : Parsed cmd)
    (hfn : graphicsFn cmd.commands = some 2 ∨ graphicsFn cmd.commands = some 50) (h : processCommand R ext r cmd = .ok r') :
    (∃ gs shown r1 r2, List.Forall₂ Buffers (buffered (cmds.map bufferOp)) gs ∧ ShowsBuffer gs shown ∧
      processText R r = .ok r1 ∧ processGraphicsOpt R r1 shown = .ok r2 ∧ deviceCommand R r2 .clearBufferGraphics = .ok r') ∧
    buffered ((cmds ++ [cmd]).map bufferOp) = [] ∧ r'.context.graphics.bufferGraphics = [] := by
  have hh := buffer_history (fun c hc => (hp c hc).known) hr fixed_new (h := []) .nil
  rw [List.nil_append] at hh
  have key : ∃ fn x, (fn.toNat = 2 ∨ fn.toNat = 50) ∧ Spec.graphicsFunction fn = some x ∧ cmd.kind = x.kind ∧ cmd.handler = .subUnit x.id := by
    rcases hfn with hfn | hfn <;> obtain ⟨fn, x, e1, e2⟩ := graphicsFn_print hc.known hfn
    · exact ⟨fn, x, .inl e1, e2⟩
    · exact ⟨fn, x, .inr e1, e2⟩
  obtain ⟨fn, x, e1, e2, e3, e4⟩ := key
  have hx : x = printBufferSub := by
    unfold Spec.graphicsFunction at e2
    rcases e1 with e1 | e1 <;> rw [e1] at e2 <;> exact (Option.some.inj e2).symm
  subst hx
  have hbuf := buffer_step hc.known h hh.1
  have hop : bufferOp cmd = .empty := by
    unfold bufferOp
    rw [if_neg (by rintro h'; rw [h'] at hfn; simp [graphicsFn] at hfn)]
    rcases hfn with hfn | hfn <;> (rw [hfn]; rfl)
  rw [hop] at hbuf
  refine ⟨?_, ?_, hbuf⟩
  · unfold processCommand at h
    rw [e3] at h
    simp only [printBufferSub, bind_ok] at h
    obtain ⟨r1, h1, g, h2, r2, h3, o, h4, h5⟩ := h
    simp only [getDevice, e4, printBufferSub, pure_ok] at h4
    subst h4
    simp only [Option.getD_some, deviceCommands, bind_ok, ok_ok] at h5
    obtain ⟨_, h5, rfl⟩ := h5
    have hg := (processText_quiet h1).4.graphics.2.1
    simp only [getGraphics, e4, printBufferSub, subGraphics] at h2
    refine ⟨r.context.graphics.bufferGraphics, g, r1, r2, hh.2, ?_, h1, h3, h5⟩
    rw [← hg] at hh ⊢
    refine printBuffer_shows ?_ h2
    intro g hg
    obtain ⟨i, hi, rfl⟩ := List.mem_iff_getElem.1 hg
    have hlen := hh.2.length_eq
    exact (List.forall₂_iff_get.1 hh.2).2 i (by omega) hi |>.kind
  · rw [List.map_append]
    simp only [List.map_cons, List.map_nil]
    rw [buffered_snoc, hop]


/-! ### Examples -/

/-- Define the NV graphic "AB" (8x1 dots) and the download graphic "AB", delete the download graphic. -/
def exampleStored : List Byte :=
  [29, 40, 76, 12, 0, 48, 67, 48, 65, 66, 1, 8, 0, 1, 0, 49, 255] ++
  [29, 40, 76, 12, 0, 48, 83, 48, 65, 66, 1, 8, 0, 1, 0, 49, 15] ++ [29, 40, 76, 4, 0, 48, 82, 65, 66, 10]
/-- Print the NV graphic "AB". -/
def examplePrintNv : List Byte := [29, 40, 76, 6, 0, 48, 69, 65, 66, 1, 1, 10]

example : ∃ cmds r, parseEscPos exampleStored = .ok cmds ∧ processCommands silent noExt cmds (Renderer.new (Out := Unit) ()) = .ok r ∧
    lastDefined .nv 65 66 (cmds.map storeOp) = some [48, 65, 66, 1, 8, 0, 1, 0, 49, 255] ∧
    lastDefined .download 65 66 (cmds.map storeOp) = none := by
  refine ⟨_, _, rfl, rfl, ?_⟩; decide +kernel

example : ∃ cmds cmd, parseEscPos examplePrintNv = .ok cmds ∧ cmd ∈ cmds ∧ graphicsFn cmd.commands = some (printFn .nv) ∧
    cmd.data = [65, 66, 1, 1] := by
  refine ⟨_, { printNvSub.toCommand with commands := [29, 40, 76, 6, 0, 48, 69], data := [65, 66, 1, 1] }, rfl, ?_⟩; decide +kernel

/-- Store two rasters of 8x1 dots in the print buffer. -/
def exampleBuffer : List Byte :=
  [29, 40, 76, 11, 0, 48, 112, 48, 1, 1, 49, 8, 0, 1, 0, 255] ++ [29, 40, 76, 11, 0, 48, 112, 48, 1, 1, 50, 8, 0, 1, 0, 15, 10]

example : ∃ cmds r r' cmd, parseEscPos exampleBuffer = .ok cmds ∧ processCommands silent noExt cmds (Renderer.new (Out := Unit) ()) = .ok r ∧
    buffered (cmds.map bufferOp) = [(false, [48, 1, 1, 49, 8, 0, 1, 0, 255]), (false, [48, 1, 1, 50, 8, 0, 1, 0, 15])] ∧
    Parsed cmd ∧ graphicsFn cmd.commands = some 50 ∧ processCommand silent noExt r cmd = .ok r' := by
  refine ⟨_, _, _, { printBufferSub.toCommand with commands := [29, 40, 76, 2, 0, 48, 50], data := [] }, rfl, rfl, by decide +kernel,
    ⟨[29, 40, 76, 2, 0, 48, 50, 10], _, rfl, by decide +kernel⟩, rfl, rfl⟩

end Thermal
