import Verif.Model.Loop
/-
Loops that write into a vector: every nest of `forRange` whose body writes or updates cells is a list of updates
applied one after the other; the value of a cell is then determined by the updates that hit it.
-/
namespace Thermal

variable {α : Type}

/-- One update: a position and a function applied to the value there. -/
abbrev Upd (α : Type) := Nat × (α → α)

def applyW (l : List α) (ws : List (Upd α)) : List α := ws.foldl (fun l w => l.modify w.1 w.2) l

@[simp] theorem applyW_nil (l : List α) : applyW l [] = l := rfl
@[simp] theorem applyW_cons (l : List α) (w : Upd α) (ws) : applyW l (w :: ws) = applyW (l.modify w.1 w.2) ws := rfl
theorem applyW_append (l : List α) (a b : List (Upd α)) : applyW l (a ++ b) = applyW (applyW l a) b := by
  simp [applyW, List.foldl_append]

@[simp] theorem applyW_length (l : List α) (ws : List (Upd α)) : (applyW l ws).length = l.length := by
  induction ws generalizing l with
  | nil => rfl
  | cons w ws ih => simp [ih]

/-- Value of a cell after all updates. -/
theorem applyW_get (l : List α) (ws : List (Upd α)) (j : Nat) :
    (applyW l ws)[j]? = l[j]?.map (fun a => (ws.filter (·.1 = j)).foldl (fun a w => w.2 a) a) := by
  induction ws generalizing l with
  | nil => simp
  | cons w ws ih =>
    rw [applyW_cons, ih, List.getElem?_modify]
    by_cases h : w.1 = j
    · simp [h, Option.map_map, Function.comp_def]
    · simp [h]

theorem foldl_const {w : List (Upd α)} {v : α} (h : ∀ u ∈ w, u.2 = fun _ => v) (hne : w ≠ []) (a : α) :
    w.foldl (fun a u => u.2 a) a = v := by
  induction w generalizing a with
  | nil => exact absurd rfl hne
  | cons u w ih =>
    have hu : u.2 = fun _ => v := h u (by simp)
    by_cases hw : w = []
    · subst hw; simp [hu]
    · simpa [hu] using ih (fun u' hu' => h u' (by simp [hu'])) hw v

/-- A cell all of whose updates write the same value. -/
theorem applyW_const {l : List α} {ws : List (Upd α)} {j : Nat} {v : α} (hj : j < l.length)
    (h : ∀ u ∈ ws, u.1 = j → u.2 = fun _ => v) (hex : ∃ u ∈ ws, u.1 = j) : (applyW l ws)[j]? = some v := by
  rw [applyW_get, List.getElem?_eq_getElem hj]
  have hne : ws.filter (fun u => u.1 = j) ≠ [] := by
    obtain ⟨u, hu, huj⟩ := hex
    intro hc
    have : u ∈ ws.filter (fun u => u.1 = j) := by simp [hu, huj]
    rw [hc] at this; cases this
  have hf : ∀ u ∈ ws.filter (fun u => u.1 = j), u.2 = fun _ => v := by
    intro u hu
    have h' := List.mem_filter.1 hu
    exact h u h'.1 (by simpa using h'.2)
  simp [foldl_const hf hne]

/-- A cell no update hits. -/
theorem applyW_other {l : List α} {ws : List (Upd α)} {j : Nat} (h : ∀ u ∈ ws, u.1 ≠ j) : (applyW l ws)[j]? = l[j]? := by
  have : ws.filter (fun u => u.1 = j) = [] := by
    simpa [List.filter_eq_nil_iff] using fun a b hab => h (a, b) hab
  rw [applyW_get, this]; simp

/-- A cell hit by exactly one update. -/
theorem applyW_once {l : List α} {ws : List (Upd α)} {j : Nat} {f : α → α} (hmem : (j, f) ∈ ws)
    (hnd : (ws.map (·.1)).Nodup) : (applyW l ws)[j]? = l[j]?.map f := by
  have : ws.filter (fun u => u.1 = j) = [(j, f)] := by
    induction ws with
    | nil => cases hmem
    | cons w ws ih =>
      simp only [List.map_cons, List.nodup_cons] at hnd
      rcases List.mem_cons.1 hmem with h | h
      · subst h
        have h0 : ws.filter (fun u => u.1 = j) = [] := by
          rw [List.filter_eq_nil_iff]
          intro u hu huj
          exact hnd.1 (List.mem_map.2 ⟨u, hu, by simpa using huj⟩)
        simp [h0]
      · have hw : w.1 ≠ j := fun hw => hnd.1 (List.mem_map.2 ⟨(j, f), h, hw.symm⟩)
        simp [hw, ih h hnd.2]
  rw [applyW_get, this]; rfl

theorem setIdx_ok {l : List α} {i : Nat} (x : α) (h : i < l.length) :
    setIdx l i x = .ok (applyW l [(i, fun _ => x)]) := by
  have : l.set i x = l.modify i (fun _ => x) := by
    apply List.ext_getElem?
    intro j
    rw [List.getElem?_set, List.getElem?_modify]
    by_cases hij : i = j
    · subst hij; simp [h]
    · simp [hij]
  simp [setIdx, h, this]

theorem foldlM_writes {L : Nat} {body : List α → Nat → Rs (List α)} {ws : Nat → List (Upd α)} (is : List Nat)
    (hb : ∀ s i, i ∈ is → s.length = L → body s i = .ok (applyW s (ws i))) {s : List α} (hs : s.length = L) :
    is.foldlM body s = .ok (applyW s (is.flatMap ws)) := by
  induction is generalizing s with
  | nil => rfl
  | cons i is ih =>
    rw [List.foldlM_cons, hb s i (by simp) hs]
    show is.foldlM body (applyW s (ws i)) = _
    rw [ih (fun s i hi => hb s i (by simp [hi])) (by simpa using hs)]
    simp [applyW_append]

/-- A loop whose body performs the updates `ws i` performs them all, in order. -/
theorem forRange_writes {L n : Nat} {body : List α → Nat → Rs (List α)} {ws : Nat → List (Upd α)}
    (hb : ∀ s i, i < n → s.length = L → body s i = .ok (applyW s (ws i))) {s : List α} (hs : s.length = L) :
    forRange n s body = .ok (applyW s ((List.range n).flatMap ws)) :=
  foldlM_writes _ (fun s i hi => hb s i (List.mem_range.1 hi)) hs

/-- General loop rule. -/
theorem forRange_inv {σ : Type} {n : Nat} {s : σ} {body : σ → Nat → Rs σ} (I : Nat → σ → Prop) (h0 : I 0 s)
    (hstep : ∀ i s, i < n → I i s → ∃ s', body s i = .ok s' ∧ I (i + 1) s') :
    ∃ s', forRange n s body = .ok s' ∧ I n s' := by
  unfold forRange
  induction n with
  | zero => exact ⟨s, rfl, h0⟩
  | succ n ih =>
    obtain ⟨s1, h1, hI⟩ := ih (fun i s hi => hstep i s (by omega))
    obtain ⟨s2, h2, hI2⟩ := hstep n s1 (by omega) hI
    refine ⟨s2, ?_, hI2⟩
    rw [List.range_succ, List.foldlM_append, h1]
    show ([n].foldlM body s1) = _
    simp [h2]

theorem idx_ok {l : List α} {i : Nat} (h : i < l.length) : idx l i = .ok l[i] := by
  simp [idx, h]

theorem idx_err {l : List α} {i : Nat} (h : l.length ≤ i) : idx l i = .error .index := by
  simp [idx, h]

theorem idx_getD {l : List α} {i : Nat} (h : i < l.length) (d : α) : idx l i = .ok (l.getD i d) := by
  simp [idx, h]

/-- In a loop that writes `val y x` at `dest y x`, an injective `dest` puts every value in its place. -/
theorem grid_writes {L w h : Nat} {dest : Nat → Nat → Nat} {val : Nat → Nat → α} {l : List α} (hl : l.length = L)
    (hd : ∀ y x, y < h → x < w → dest y x < L)
    (hinj : ∀ y x y' x', y < h → x < w → y' < h → x' < w → dest y x = dest y' x' → y = y' ∧ x = x')
    (ws : List (Upd α))
    (hws : ws = (List.range h).flatMap fun y => (List.range w).flatMap fun x => [(dest y x, fun _ => val y x)]) :
    (applyW l ws).length = L ∧ (∀ y x, y < h → x < w → (applyW l ws)[dest y x]? = some (val y x)) := by
  subst hws
  refine ⟨by simpa using hl, fun y x hy hx => ?_⟩
  apply applyW_const (by rw [hl]; exact hd y x hy hx)
  · intro u hu huj
    simp only [List.mem_flatMap, List.mem_range, List.mem_singleton] at hu
    obtain ⟨y', hy', x', hx', rfl⟩ := hu
    obtain ⟨rfl, rfl⟩ := hinj y' x' y x hy' hx' hy hx huj
    rfl
  · refine ⟨(dest y x, fun _ => val y x), ?_, rfl⟩
    simp only [List.mem_flatMap, List.mem_range, List.mem_singleton]
    exact ⟨y, hy, x, hx, rfl⟩

/-! ### Row-major indices -/

theorem rm_lt {w h x y : Nat} (hx : x < w) (hy : y < h) : y * w + x < w * h := by
  have : (y + 1) * w ≤ h * w := Nat.mul_le_mul_right w hy
  rw [Nat.add_mul] at this
  rw [Nat.mul_comm w h]; omega

theorem rm_inj {w x y x' y' : Nat} (hx : x < w) (hx' : x' < w) (h : y * w + x = y' * w + x') : y = y' ∧ x = x' := by
  have hw : 0 < w := by omega
  have h1 : (y * w + x) / w = y := by rw [Nat.mul_comm, Nat.mul_add_div hw, Nat.div_eq_of_lt hx]; rfl
  have h2 : (y' * w + x') / w = y' := by rw [Nat.mul_comm, Nat.mul_add_div hw, Nat.div_eq_of_lt hx']; rfl
  have : y = y' := by rw [← h1, ← h2, h]
  subst this
  exact ⟨rfl, by omega⟩

theorem rm_div {w x y : Nat} (hx : x < w) : (y * w + x) / w = y := by
  have hw : 0 < w := by omega
  rw [Nat.mul_comm, Nat.mul_add_div hw, Nat.div_eq_of_lt hx]; rfl

theorem rm_mod {w x y : Nat} (hx : x < w) : (y * w + x) % w = x := by
  rw [Nat.mul_comm, Nat.mul_add_mod, Nat.mod_eq_of_lt hx]

end Thermal
