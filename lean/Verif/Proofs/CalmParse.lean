import Verif.Proofs.CalmGet
import Verif.Proofs.Known
/-
The sizes of images in the commands of a stream.
-/
namespace Thermal

/-- The state of a handler while its command is read. -/
def ShapeH : Handler → Prop
  | .bitImage s => s.colEncoded = true ∧ s.width ≤ 65535 ∧ s.height ≤ 24 ∧ (s.stretch = (1, 1) ∨ s.stretch = (2, 3))
  | .raster s => s.width ≤ 524280 ∧ s.height ≤ 65535
  | _ => True

instance (h : Handler) : Decidable (ShapeH h) := by
  unfold ShapeH; split <;> infer_instance

theorem bitImagePush_shape {s : BitImageState} {d : List Byte} {b : Byte} (h : ShapeH (.bitImage s)) : ShapeH (.bitImage (bitImagePush s d b).1) := by
  obtain ⟨h1, h2, h3, h4⟩ := h
  unfold bitImagePush
  split
  · split
    · exact ⟨h1, h2, h3, h4⟩
    · exact ⟨h1, h2, h3, h4⟩
  · split
    · exact ⟨h1, h2, h3, h4⟩
    · exact ⟨h1, h2, h3, h4⟩
    · rename_i m p1 _
      have hp := p1.toNat_lt
      have hb := b.toNat_lt
      have hw : p1.toNat + b.toNat * 256 ≤ 65535 := by omega
      dsimp only
      by_cases a : m = 32 ∨ m = 33 <;> by_cases c : m = 0 ∨ m = 32 <;> simp only [a, c, if_true, if_false, ShapeH] <;>
        simp [h1, h4, hw]

theorem rasterPush_shape {s : RasterState} {d : List Byte} {b : Byte} (h : ShapeH (.raster s)) : ShapeH (.raster (rasterPush s d b).1) := by
  obtain ⟨h1, h2⟩ := h
  unfold rasterPush
  split
  · split
    · rename_i sc xl xh yl _
      have := xl.toNat_lt
      have := xh.toNat_lt
      have := yl.toNat_lt
      have := b.toNat_lt
      exact ⟨by dsimp only; omega, by dsimp only; omega⟩
    · exact ⟨h1, h2⟩
  · split
    · exact ⟨h1, h2⟩
    · exact ⟨h1, h2⟩

theorem handlerPush_shape {h : Handler} {d : List Byte} {b : Byte} {r} (hs : ShapeH h) (hp : h.push d b = .ok r) : ShapeH r.1 := by
  cases h with
  | unit id =>
    cases id <;> simp only [Handler.push] at hp <;> rw [pure_ok] at hp <;> subst hp <;> trivial
  | subUnit id => simp only [Handler.push] at hp; rw [pure_ok] at hp; subst hp; trivial
  | charEffects c => simp only [Handler.push] at hp; rw [pure_ok] at hp; subst hp; trivial
  | barcode s => simp only [Handler.push] at hp; rw [pure_ok] at hp; subst hp; trivial
  | bitImage s => simp only [Handler.push] at hp; rw [pure_ok] at hp; subst hp; exact bitImagePush_shape hs
  | raster s => simp only [Handler.push] at hp; rw [pure_ok] at hp; subst hp; exact rasterPush_shape hs
  | sub s =>
    simp only [Handler.push, bind_ok] at hp
    obtain ⟨x, _, hp⟩ := hp
    rw [pure_ok] at hp; subst hp; trivial

theorem push_shape {c c' : Command} {b : Byte} {ok} (hs : ShapeH c.handler) (h : c.push b = .ok (c', ok)) : ShapeH c'.handler := by
  unfold Command.push at h
  have go : (do let (h, d, ok) ← c.handler.push c.data b
                pure ({ c with handler := h, data := d }, ok)) = Except.ok (c', ok) → ShapeH c'.handler := by
    intro hh
    rw [bind_ok] at hh
    obtain ⟨⟨h', d', ok'⟩, e, hh⟩ := hh
    simp only [pure, Except.pure, Except.ok.injEq, Prod.mk.injEq] at hh
    rw [← hh.1]
    exact handlerPush_shape hs e
  split at h
  · exact go h
  · exact go h
  · simp only [pure, Except.pure, Except.ok.injEq, Prod.mk.injEq] at h; rw [← h.1]; exact hs
  · simp only [pure, Except.pure, Except.ok.injEq, Prod.mk.injEq] at h; rw [← h.1]; exact hs
  · split at h
    · split at h <;> simp only [pure, Except.pure, Except.ok.injEq, Prod.mk.injEq] at h <;> (rw [← h.1]; exact hs)
    · simp only [pure, Except.pure, Except.ok.injEq, Prod.mk.injEq] at h; rw [← h.1]; exact hs

theorem table_shape : ∀ c ∈ escPosCommands, ShapeH c.handler := by decide +kernel

theorem sub_kinds : ∀ base ∈ baseCommands ++ [beginPrintCmd, endPrintCmd], base.kind ≠ .subcommand →
    base.kind = .control ∨ (match base.handler with | .sub _ => false | _ => true) = true := by decide +kernel

theorem shape_all {bs : List Byte} {cmds : List Command} (h : parseEscPos bs = .ok cmds) : ∀ c ∈ cmds, ShapeH c.handler := by
  refine parse_all (J := fun c => ShapeH c.handler) (Q := fun c => ShapeH c.handler) table_shape ?_ ?_ ?_ ?_ ?_ ?_ ?_ ?_ h
  · decide
  · decide
  · intro c d hc; exact hc
  · intro c b c' ok hc hp; exact push_shape hc hp
  · intro c hc d hd
    unfold emitted at hd
    split at hd
    · split at hd
      · simp only [List.mem_singleton] at hd; subst hd; trivial
      · simp at hd
    · simp only [List.mem_singleton] at hd; subst hd; exact hc
  · decide
  · decide
  · decide

theorem parse_shape {bs : List Byte} {cmds : List Command} (h : parseEscPos bs = .ok cmds) : ∀ c ∈ cmds, ShapeOk c := by
  intro c hc
  have h1 := shape_all h c hc
  have h2 := parse_known h c hc
  unfold ShapeOk
  unfold ShapeH at h1
  rcases hk : c.handler with id | id | cap | s | s | s | s <;> rw [hk] at h1 <;> try exact h1
  rcases h2 with ⟨base, hb, hn, hd⟩ | ⟨op, hdr, x, _, _, _, he, _⟩
  · have hcl := hd.handler
    rw [hk] at hcl
    rw [hd.kind]
    rcases sub_kinds base hb hn with h3 | h3
    · exact h3
    · exfalso
      rcases hh : base.handler with _ | _ | _ | _ | _ | _ | t <;> rw [hh] at hcl h3
      all_goals first | (simp [Handler.sameClass] at hcl; done) | cases h3
  · rw [hk] at he; cases he

end Thermal
