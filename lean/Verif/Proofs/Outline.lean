import Verif.Proofs.Debug
import Verif.Proofs.Loop
import Verif.Proofs.F32Color
import Mathlib.Tactic.ByContra
/-
The outline that a debug profile draws around characters, images and pages, dot by dot.
-/
namespace Thermal.Canvas

/-- `old` covered `k` times with a colour. -/
def times (col : RGBA) : Nat → RGBA → RGBA
  | 0, old => old
  | k + 1, old => (times col k old).blend col

theorem blendAt_dots {l : List RGBA} {i : Nat} (col : RGBA) (h : i < l.length) :
    ∃ l', blendAt l i col = .ok l' ∧ l'.length = l.length ∧ ∀ n, l'[n]? = if n = i then l[n]?.map (·.blend col) else l[n]? := by
  refine ⟨l.set i (l[i].blend col), ?_, by simp, fun n => ?_⟩
  · simp only [blendAt, idx_ok h, bind, Except.bind, setIdx, if_pos h]
  · rw [List.getElem?_set]
    by_cases e : i = n
    · subst e
      rw [if_pos rfl, if_pos rfl, if_pos h, List.getElem?_eq_getElem h]; rfl
    · rw [if_neg e, if_neg (Ne.symm e)]

/-- Two dots blended one after the other, given how often each dot was blended before. -/
theorem blendTwo {px s : List RGBA} {col : RGBA} {i j : Nat} {k k' : Nat → Nat} (hi : i < px.length) (hj : j < px.length)
    (hs : s.length = px.length ∧ ∀ n, s[n]? = px[n]?.map (times col (k n)))
    (hk : ∀ n, k' n = k n + (if n = i then 1 else 0) + (if n = j then 1 else 0)) :
    ∃ s1 s2, blendAt s i col = .ok s1 ∧ blendAt s1 j col = .ok s2 ∧ s2.length = px.length ∧ ∀ n, s2[n]? = px[n]?.map (times col (k' n)) := by
  obtain ⟨s1, e1, l1, d1⟩ := blendAt_dots (l := s) col (by rw [hs.1]; exact hi)
  obtain ⟨s2, e2, l2, d2⟩ := blendAt_dots (l := s1) col (by rw [l1, hs.1]; exact hj)
  refine ⟨s1, s2, e1, e2, by rw [l2, l1, hs.1], fun n => ?_⟩
  rw [d2, d1, hs.2, hk]
  by_cases a : n = i <;> by_cases b : n = j <;> simp only [a, b, if_true, if_false, Nat.add_zero] <;>
    cases px[n]? <;> simp_all [times]

theorem place {n i w r : Nat} (hr : r < w) : n = i * w + r ↔ n / w = i ∧ n % w = r := by
  constructor
  · rintro rfl
    have hw : 0 < w := by omega
    constructor
    · rw [Nat.mul_comm, Nat.mul_add_div hw, Nat.div_eq_of_lt hr, Nat.add_zero]
    · rw [Nat.mul_comm, Nat.mul_add_mod, Nat.mod_eq_of_lt hr]
  · rintro ⟨rfl, rfl⟩
    rw [Nat.mul_comm]; exact (Nat.div_add_mod n w).symm

/-- How often the dot `x`, `y` of a picture of `w` times `h` dots is covered by its outline: once for every side it lies on. -/
def sides (w h x y : Nat) : Nat :=
  (if y = 0 then 1 else 0) + (if y = h - 1 then 1 else 0) + (if x = 0 then 1 else 0) + (if x = w - 1 then 1 else 0)

theorem drawBorder_dots {px : List RGBA} {w h : Nat} (col : RGBA) (hw : 0 < w) (hh : 0 < h) (hl : px.length = w * h) (hu : w * h < U32) :
    ∃ px', drawBorder px w h col = .ok px' ∧ px'.length = px.length ∧
      ∀ x y, x < w → y < h → px'[y * w + x]? = px[y * w + x]?.map (times col (sides w h x y)) := by
  obtain ⟨m, rfl⟩ : ∃ m, h = m + 1 := ⟨h - 1, by omega⟩
  have hL : px.length = m * w + w := by rw [hl, Nat.mul_comm, Nat.add_mul, Nat.one_mul]
  have hrows : subU (m + 1) 1 = .ok m := by simp [subU]
  have hbot : mulU32 m w = .ok (m * w) := by
    have : m * w < U32 := by rw [← hl] at hu; omega
    simp [mulU32, this]
  obtain ⟨s1, f1, l1, d1⟩ := forRange_inv (n := w) (s := px)
    (body := fun bytes x => do let bytes ← blendAt bytes x col; blendAt bytes (m * w + x) col)
    (fun i s => s.length = px.length ∧ ∀ n, s[n]? = px[n]?.map (times col ((if n < i then 1 else 0) + (if m * w ≤ n ∧ n < m * w + i then 1 else 0))))
    ⟨rfl, fun n => by
      rw [if_neg (by omega), if_neg (by omega)]
      cases px[n]? <;> rfl⟩
    (fun i s hi hs => by
      obtain ⟨a, b, e1, e2, e3⟩ := blendTwo (i := i) (j := m * w + i)
        (k' := fun n => (if n < i + 1 then 1 else 0) + (if m * w ≤ n ∧ n < m * w + (i + 1) then 1 else 0)) (by omega) (by omega) hs (fun n => by
          split <;> split <;> split <;> split <;> split <;> split <;> omega)
      exact ⟨b, by simp only [bind, Except.bind, e1]; exact e2, e3⟩)
  have hsw : subU w 1 = .ok (w - 1) := by simp [subU, show 1 ≤ w from hw]
  obtain ⟨s2, f2, l2, d2⟩ := forRange_inv (n := m + 1) (s := s1)
    (body := fun bytes y => do let last ← subU w 1; let bytes ← blendAt bytes (y * w) col; blendAt bytes (y * w + last) col)
    (fun i s => s.length = px.length ∧ ∀ n, s[n]? = px[n]?.map (times col ((if n < w then 1 else 0) + (if m * w ≤ n ∧ n < m * w + w then 1 else 0) +
      (if n / w < i ∧ n % w = 0 then 1 else 0) + (if n / w < i ∧ n % w = w - 1 then 1 else 0))))
    ⟨l1, fun n => by
      rw [d1, if_neg (c := n / w < 0 ∧ n % w = 0) (fun a => Nat.not_lt_zero _ a.1),
        if_neg (c := n / w < 0 ∧ n % w = w - 1) (fun a => Nat.not_lt_zero _ a.1), Nat.add_zero]⟩
    (fun i s hi hs => by
      have hb : i * w + w ≤ m * w + w := Nat.add_le_add_right (Nat.mul_le_mul_right _ (by omega)) _
      obtain ⟨a, b, e1, e2, e3⟩ := blendTwo (i := i * w) (j := i * w + (w - 1))
        (k' := fun n => (if n < w then 1 else 0) + (if m * w ≤ n ∧ n < m * w + w then 1 else 0) +
          (if n / w < i + 1 ∧ n % w = 0 then 1 else 0) + (if n / w < i + 1 ∧ n % w = w - 1 then 1 else 0)) (by omega) (by omega) hs (fun n => by
          have p1 := place (n := n) (i := i) (w := w) (r := 0) hw
          have p2 := place (n := n) (i := i) (w := w) (r := w - 1) (by omega)
          rw [Nat.add_zero] at p1
          simp only [p1, p2]
          generalize n / w = q
          generalize n % w = r
          generalize ((if n < w then 1 else 0) + (if m * w ≤ n ∧ n < m * w + w then 1 else 0) : Nat) = base
          clear d1 hs
          split <;> split <;> split <;> split <;> split <;> split <;> omega)
      exact ⟨b, by simp only [hsw, bind, Except.bind, e1]; exact e2, e3⟩)
  refine ⟨s2, ?_, l2, fun x y hx hy => ?_⟩
  · simp only [drawBorder, hrows, hbot, bind, Except.bind]
    simp only [bind, Except.bind] at f1 f2
    rw [f1]
    exact f2
  · rw [d2]
    obtain ⟨e1, e2⟩ := (place (n := y * w + x) (i := y) (w := w) hx).1 rfl
    rw [e1, e2]
    have a1 : y * w + x < w ↔ y = 0 := by
      constructor
      · intro h
        by_contra hy0
        have : 1 * w ≤ y * w := Nat.mul_le_mul_right _ (by omega)
        omega
      · rintro rfl; omega
    have a2 : (m * w ≤ y * w + x ∧ y * w + x < m * w + w) ↔ y = m := by
      constructor
      · rintro ⟨h1, h2⟩
        by_contra hne
        have : (y + 1) * w ≤ m * w := Nat.mul_le_mul_right _ (by omega)
        rw [Nat.add_mul, Nat.one_mul] at this
        omega
      · rintro rfl; omega
    simp only [a1, a2, sides, Nat.add_sub_cancel, hy, true_and]

/-- An opaque colour covers what is below it, however often. -/
theorem times_opaque {col : RGBA} (h : col.a = 255) (old : RGBA) {k : Nat} (hk : 0 < k) : times col k old = col := by
  cases k with
  | zero => omega
  | succ k =>
    show (times col k old).blend col = col
    obtain ⟨r, g, b, a⟩ := col
    dsimp only at h
    subst h
    have e : ∀ c : Byte, blendChan c c 255 = c := fun c => by
      have h1 := c.toNat_lt
      refine UInt8.toNat.inj ?_
      rw [blendChan_eq, UInt8.toNat_ofNat']
      show (2 * (c.toNat * 255 + c.toNat * (255 - 255)) + 255) / 510 % 256 = c.toNat
      omega
    simp only [RGBA.blend, RGBA.blendWithAlpha, if_true, e]
    rfl

end Thermal.Canvas
