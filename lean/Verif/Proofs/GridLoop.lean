import Verif.Proofs.Loop
import Verif.Spec.Grid
/-
Loops that move the dots of a picture.
-/
namespace Thermal
open Spec

variable {α : Type}

/-- A double loop that copies dot (x,y) to position `dest y x`. -/
theorem grid_copy {data init : List α} {w h L : Nat} {dest : Nat → Nat → Nat} (hdata : w * h ≤ data.length)
    (hl : init.length = L) (hd : ∀ y x, y < h → x < w → dest y x < L)
    (hinj : ∀ y x y' x', y < h → x < w → y' < h → x' < w → dest y x = dest y' x' → y = y' ∧ x = x') :
    ∃ r, (forRange h init fun r y => forRange w r fun r x => do
        let v ← idx data (y * w + x)
        setIdx r (dest y x) v) = .ok r ∧ r.length = L ∧
      ∀ y x, y < h → x < w → r[dest y x]? = data[y * w + x]? := by
  by_cases hwh : 0 < w * h
  · have hne : data ≠ [] := by intro h0; simp [h0] at hdata; omega
    obtain ⟨d, hd0⟩ : ∃ d, d ∈ data := List.exists_mem_of_ne_nil data hne
    have hin : ∀ y x, y < h → x < w → y * w + x < data.length := fun y x hy hx => Nat.lt_of_lt_of_le (rm_lt hx hy) hdata
    refine ⟨_, forRange_writes (L := L)
      (ws := fun y => (List.range w).flatMap fun x => [(dest y x, fun _ => data.getD (y * w + x) d)]) ?_ hl, ?_⟩
    · intro s y hy hs
      refine forRange_writes (L := L) ?_ hs
      intro s x hx hs
      rw [idx_getD (hin y x hy hx) d]
      show setIdx s (dest y x) _ = _
      exact setIdx_ok _ (by rw [hs]; exact hd y x hy hx)
    · obtain ⟨h1, h2⟩ := grid_writes (val := fun y x => data.getD (y * w + x) d) hl hd hinj _ rfl
      refine ⟨h1, fun y x hy hx => ?_⟩
      rw [h2 y x hy hx, List.getElem?_eq_getElem (hin y x hy hx)]
      simp [List.getD_eq_getElem?_getD, hin y x hy hx]
  · refine ⟨init, ?_, hl, fun y x hy hx => absurd (Nat.mul_pos (by omega) (by omega)) hwh⟩
    have h0 : w = 0 ∨ h = 0 := by
      rcases Nat.eq_zero_or_pos w with h | h1
      · exact .inl h
      · rcases Nat.eq_zero_or_pos h with h | h2
        · exact .inr h
        · exact absurd (Nat.mul_pos h1 h2) hwh
    rcases h0 with h0 | h0
    · subst h0
      have : (fun (r : List α) (y : Nat) => forRange 0 r fun r x => do
        let v ← idx data (y * 0 + x)
        setIdx r (dest y x) v) = fun r _ => (.ok r : Rs (List α)) := rfl
      rw [this]
      unfold forRange
      generalize List.range h = is
      induction is with
      | nil => rfl
      | cons i is ih => exact ih
    · subst h0; rfl

/-- The same loop when the data is too short: it panics. -/
theorem grid_copy_short {data init : List α} {w h : Nat} {dest : Nat → Nat → Nat} (hdata : data.length < w * h) :
    ∃ e, (forRange h init fun r y => forRange w r fun r x => do
        let v ← idx data (y * w + x)
        setIdx r (dest y x) v) = .error e := by
  cases hr : (forRange h init fun r y => forRange w r fun r x => do
        let v ← idx data (y * w + x)
        setIdx r (dest y x) v) with
  | error e => exact ⟨e, rfl⟩
  | ok r =>
    exfalso
    have key : ∀ {σ : Type} (is : List Nat) (s : σ) (body : σ → Nat → Rs σ) (r : σ), is.foldlM body s = .ok r →
        ∀ i ∈ is, ∃ s s', body s i = .ok s' := by
      intro σ is
      induction is with
      | nil => intro s body r _ i hi; cases hi
      | cons j is ih =>
        intro s body r hr i hi
        rw [List.foldlM_cons] at hr
        cases hb : body s j with
        | error e => rw [hb] at hr; cases hr
        | ok s' =>
          rw [hb] at hr
          rcases List.mem_cons.1 hi with rfl | hi
          · exact ⟨s, s', hb⟩
          · exact ih s' body r hr i hi
    have hh : 0 < h := by rcases Nat.eq_zero_or_pos h with h0 | h0; · subst h0; simp at hdata
                          · exact h0
    have hw : 0 < w := by rcases Nat.eq_zero_or_pos w with h0 | h0; · subst h0; simp at hdata
                          · exact h0
    obtain ⟨s, s', h1⟩ := key _ _ _ _ hr (h - 1) (List.mem_range.2 (by omega))
    obtain ⟨t, t', h2⟩ := key _ _ _ _ h1 (w - 1) (List.mem_range.2 (by omega))
    have e : (h - 1) * w + (w - 1) = w * h - 1 := by
      obtain ⟨k, rfl⟩ : ∃ k, h = k + 1 := ⟨h - 1, by omega⟩
      rw [Nat.add_sub_cancel, Nat.mul_add, Nat.mul_comm w k]; omega
    rw [e, idx_err (by omega)] at h2
    cases h2

theorem Shows.of_get {px : List α} {w h : Nat} {f g : Nat → Nat → α} (hp : Shows px w h f)
    (hfg : ∀ x y, x < w → y < h → f x y = g x y) : Shows px w h g :=
  ⟨hp.1, fun x y hx hy => by rw [hp.2 x y hx hy, hfg x y hx hy]⟩

/-- A picture determines its vector. -/
theorem Shows.ext {px qx : List α} {w h : Nat} {f : Nat → Nat → α} (hp : Shows px w h f) (hq : Shows qx w h f) :
    px = qx := by
  apply List.ext_getElem?
  intro i
  by_cases hi : i < w * h
  · have hw : 0 < w := by rcases Nat.eq_zero_or_pos w with h0 | h0; · subst h0; simp at hi
                          · exact h0
    have hx : i % w < w := Nat.mod_lt _ hw
    have hy : i / w < h := Nat.div_lt_of_lt_mul hi
    have e : i / w * w + i % w = i := by rw [Nat.mul_comm]; exact Nat.div_add_mod i w
    have a := hp.2 _ _ hx hy
    have b := hq.2 _ _ hx hy
    rw [e] at a b
    rw [a, b]
  · rw [List.getElem?_eq_none (by rw [hp.1]; omega), List.getElem?_eq_none (by rw [hq.1]; omega)]

/-- Every vector of the right size shows some picture. -/
theorem Shows.self [Inhabited α] {px : List α} {w h : Nat} (hl : px.length = w * h) :
    Shows px w h (fun x y => px.getD (y * w + x) default) := by
  refine ⟨hl, fun x y hx hy => ?_⟩
  have : y * w + x < px.length := by rw [hl]; exact rm_lt hx hy
  rw [List.getElem?_eq_getElem this]
  simp [this]

/-- Quarter turn clockwise. -/
theorem rot90_loop {data : List α} {w h : Nat} {f : Nat → Nat → α} (hd : Shows data w h f) (z : α) :
    ∃ r, (forRange h (List.replicate (w * h) z) fun r y => forRange w r fun r x => do
        let v ← idx data (y * w + x)
        setIdx r (x * h + (h - 1 - y)) v) = .ok r ∧ Shows r h w (fun x y => f y (h - 1 - x)) := by
  obtain ⟨r, h1, h2, h3⟩ := grid_copy (data := data) (init := List.replicate (w * h) z) (w := w) (h := h) (L := w * h)
    (dest := fun y x => x * h + (h - 1 - y)) (by rw [hd.1]; exact Nat.le_refl _) (by simp)
    (fun y x hy hx => by rw [Nat.mul_comm w h]; exact rm_lt (by omega) hx)
    (fun y x y' x' hy hx hy' hx' he => by
      obtain ⟨a, b⟩ := rm_inj (w := h) (by omega) (by omega) he
      exact ⟨by omega, a⟩)
  refine ⟨r, h1, by rw [h2, Nat.mul_comm], fun x y hx hy => ?_⟩
  have := h3 (h - 1 - x) y (by omega) hy
  rw [show h - 1 - (h - 1 - x) = x by omega] at this
  rw [this, hd.2 y (h - 1 - x) hy (by omega)]

/-- Half turn. -/
theorem rot180_loop {data : List α} {w h : Nat} {f : Nat → Nat → α} (hd : Shows data w h f) (z : α) :
    ∃ r, (forRange h (List.replicate (w * h) z) fun r y => forRange w r fun r x => do
        let v ← idx data (y * w + x)
        setIdx r ((h - 1 - y) * w + (w - 1 - x)) v) = .ok r ∧ Shows r w h (fun x y => f (w - 1 - x) (h - 1 - y)) := by
  obtain ⟨r, h1, h2, h3⟩ := grid_copy (data := data) (init := List.replicate (w * h) z) (w := w) (h := h) (L := w * h)
    (dest := fun y x => (h - 1 - y) * w + (w - 1 - x)) (by rw [hd.1]; exact Nat.le_refl _) (by simp)
    (fun y x hy hx => rm_lt (by omega) (by omega))
    (fun y x y' x' hy hx hy' hx' he => by
      obtain ⟨a, b⟩ := rm_inj (w := w) (by omega) (by omega) he
      exact ⟨by omega, by omega⟩)
  refine ⟨r, h1, h2, fun x y hx hy => ?_⟩
  have := h3 (h - 1 - y) (w - 1 - x) (by omega) (by omega)
  rw [show h - 1 - (h - 1 - y) = y by omega, show w - 1 - (w - 1 - x) = x by omega] at this
  rw [this, hd.2 _ _ (by omega) (by omega)]

/-- Three quarter turns clockwise. -/
theorem rot270_loop {data : List α} {w h : Nat} {f : Nat → Nat → α} (hd : Shows data w h f) (z : α) :
    ∃ r, (forRange h (List.replicate (w * h) z) fun r y => forRange w r fun r x => do
        let v ← idx data (y * w + x)
        setIdx r ((w - 1 - x) * h + y) v) = .ok r ∧ Shows r h w (fun x y => f (w - 1 - y) x) := by
  obtain ⟨r, h1, h2, h3⟩ := grid_copy (data := data) (init := List.replicate (w * h) z) (w := w) (h := h) (L := w * h)
    (dest := fun y x => (w - 1 - x) * h + y) (by rw [hd.1]; exact Nat.le_refl _) (by simp)
    (fun y x hy hx => by rw [Nat.mul_comm w h]; exact rm_lt hy (by omega))
    (fun y x y' x' hy hx hy' hx' he => by
      obtain ⟨a, b⟩ := rm_inj (w := h) (by omega) (by omega) he
      exact ⟨b, by omega⟩)
  refine ⟨r, h1, by rw [h2, Nat.mul_comm], fun x y hx hy => ?_⟩
  have := h3 x (w - 1 - y) hx (by omega)
  rw [show w - 1 - (w - 1 - y) = y by omega] at this
  rw [this, hd.2 _ _ (by omega) hx]

/-- Mirror left-right. -/
theorem flip_loop {data : List α} {w h : Nat} {f : Nat → Nat → α} (hd : Shows data w h f) (z : α) :
    ∃ r, (forRange h (List.replicate (w * h) z) fun r y => forRange w r fun r x => do
        let v ← idx data (y * w + x)
        setIdx r (y * w + (w - 1 - x)) v) = .ok r ∧ Shows r w h (fun x y => f (w - 1 - x) y) := by
  obtain ⟨r, h1, h2, h3⟩ := grid_copy (data := data) (init := List.replicate (w * h) z) (w := w) (h := h) (L := w * h)
    (dest := fun y x => y * w + (w - 1 - x)) (by rw [hd.1]; exact Nat.le_refl _) (by simp)
    (fun y x hy hx => rm_lt (by omega) (by omega))
    (fun y x y' x' hy hx hy' hx' he => by
      obtain ⟨a, b⟩ := rm_inj (w := w) (by omega) (by omega) he
      exact ⟨a, by omega⟩)
  refine ⟨r, h1, h2, fun x y hx hy => ?_⟩
  have := h3 y (w - 1 - x) hy (by omega)
  rw [show w - 1 - (w - 1 - x) = x by omega] at this
  rw [this, hd.2 _ _ (by omega) hy]

end Thermal
