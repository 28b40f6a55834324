import Verif.Spec.F32
import Mathlib.Data.Rat.Lemmas
import Mathlib.Algebra.Order.Field.Basic
import Mathlib.Data.Rat.Cast.Order
import Mathlib.Algebra.Order.Field.Rat
import Mathlib.Tactic.Linarith
import Mathlib.Tactic.Ring
import Mathlib.Tactic.NormNum
import Mathlib.Tactic.Positivity
import Mathlib.Tactic.FieldSimp
/-
Rounding to `f32` is right, and by how much it is off.
-/
namespace Thermal
open Spec
namespace F32

/-- The grid of the numbers near `q`. -/
def grid (q : Nat) : Nat := 2 ^ (q.log2 - 23)

theorem grid_pos (q : Nat) : 0 < grid q := Nat.pow_pos (by decide)

theorem grid_le {q : Nat} : grid q = 1 ∨ grid q * 2 ^ 23 ≤ q ∧ q < grid q * 2 ^ 24 := by
  unfold grid
  by_cases h : q.log2 ≤ 23
  · left; rw [Nat.sub_eq_zero_of_le h]; rfl
  · right
    have hq : q ≠ 0 := by rintro rfl; simp at h
    rw [← Nat.pow_add, ← Nat.pow_add]
    have e1 : q.log2 - 23 + 23 = q.log2 := by omega
    have e2 : q.log2 - 23 + 24 = q.log2 + 1 := by omega
    rw [e1, e2]
    exact ⟨Nat.log2_self_le hq, Nat.lt_log2_self⟩

theorem grid_one {q : Nat} (h : grid q = 1) : q < 2 ^ 24 := by
  unfold grid at h
  have h1 : q.log2 - 23 = 0 := by
    rcases Nat.eq_zero_or_pos (q.log2 - 23) with h0 | h0
    · exact h0
    · have := Nat.pow_lt_pow_right (a := 2) (by decide) h0
      omega
  exact Nat.lt_of_lt_of_le Nat.lt_log2_self (Nat.pow_le_pow_right (by decide) (by omega))

theorem round_eq (n d : Nat) : ∃ m r : Nat, n = d * grid (n / d) * m + r ∧ m = n / (d * grid (n / d)) ∧ (0 < d → r < d * grid (n / d)) ∧
    (((2 * r < d * grid (n / d) ∨ 2 * r = d * grid (n / d) ∧ m % 2 = 0) ∧ (round n d).units = m * grid (n / d)) ∨
     ((d * grid (n / d) < 2 * r ∨ 2 * r = d * grid (n / d) ∧ m % 2 = 1) ∧ (round n d).units = (m + 1) * grid (n / d))) := by
  refine ⟨_, _, (Nat.div_add_mod n _).symm, rfl, fun h => Nat.mod_lt _ (Nat.mul_pos h (grid_pos _)), ?_⟩
  unfold round
  show _ ∨ _
  dsimp only
  rw [show 2 ^ ((n / d).log2 - 23) = grid (n / d) from rfl]
  split
  · rename_i h; exact .inl ⟨h, rfl⟩
  · rename_i h; exact .inr ⟨by omega, rfl⟩

theorem isF32_of {m j : Nat} (h : m ≤ 2 ^ 24) : IsF32 (m * 2 ^ j) := by
  rcases Nat.lt_or_eq_of_le h with h | rfl
  · exact ⟨m, j, h, rfl⟩
  · exact ⟨2 ^ 23, j + 1, by decide, by rw [Nat.pow_succ]; ring⟩

/-- A `f32` is on the grid, or below all of it. -/
theorem isF32_grid {k q : Nat} (h : IsF32 k) : (∃ c, k = c * grid q) ∨ k < 2 ^ 23 * grid q := by
  obtain ⟨m, j, hm, rfl⟩ := h
  unfold grid
  by_cases hj : q.log2 - 23 ≤ j
  · left
    refine ⟨m * 2 ^ (j - (q.log2 - 23)), ?_⟩
    rw [Nat.mul_assoc, ← Nat.pow_add]
    congr 2; omega
  · right
    have e : 2 ^ 23 * 2 ^ (q.log2 - 23) = 2 ^ 24 * 2 ^ (q.log2 - 23 - 1) := by
      rw [← Nat.pow_add, ← Nat.pow_add]; congr 1; omega
    rw [e]
    exact Nat.lt_of_lt_of_le (Nat.mul_lt_mul_of_pos_right hm (Nat.pow_pos (by decide))) (Nat.mul_le_mul_left _ (Nat.pow_le_pow_right (by decide) (by omega)))

/-- The number of steps is that of a number with 24 binary digits. -/
theorem steps {n d m r : Nat} (hd : 0 < d) (h1 : n = d * grid (n / d) * m + r) (h2 : r < d * grid (n / d)) :
    m < 2 ^ 24 ∧ (grid (n / d) = 1 ∨ 2 ^ 23 ≤ m) := by
  have hm : m = n / d / grid (n / d) := by
    rw [Nat.div_div_eq_div_mul]
    have hD : 0 < d * grid (n / d) := Nat.mul_pos hd (grid_pos _)
    generalize d * grid (n / d) = D at h1 h2 hD ⊢
    subst h1
    rw [Nat.mul_add_div hD, Nat.div_eq_of_lt h2, Nat.add_zero]
  rcases @grid_le (n / d) with h | ⟨h3, h4⟩
  · refine ⟨?_, .inl h⟩
    rw [hm, h, Nat.div_one]
    exact grid_one h
  · refine ⟨?_, .inr ?_⟩
    · rw [hm]; exact Nat.div_lt_of_lt_mul h4
    · rw [hm]; exact (Nat.le_div_iff_mul_le (grid_pos _)).2 (by rw [Nat.mul_comm]; exact h3)

/-- The rounding is that of IEEE 754. -/
theorem round_rounded {n d : Nat} (hd : 0 < d) : Rounded n d (round n d).units := by
  obtain ⟨m, r, h1, h2, h3, h4⟩ := round_eq n d
  have h3 := h3 hd
  obtain ⟨s1, s2⟩ := steps hd h1 h3
  have hg := grid_pos (n / d)
  have key : ∀ k', IsF32 k' → (∃ c, k' * d = d * grid (n / d) * c ∧ k' = c * grid (n / d)) ∨ k' * d < d * grid (n / d) * m := by
    intro k' hk
    rcases isF32_grid (q := n / d) hk with ⟨c, rfl⟩ | hlt
    · exact .inl ⟨c, by ring, rfl⟩
    · rcases s2 with s2 | s2
      · exact .inl ⟨k', by rw [s2]; ring, by rw [s2, Nat.mul_one]⟩
      · right
        calc k' * d < 2 ^ 23 * grid (n / d) * d := Nat.mul_lt_mul_of_pos_right hlt hd
          _ = d * grid (n / d) * 2 ^ 23 := by ring
          _ ≤ d * grid (n / d) * m := Nat.mul_le_mul_left _ s2
  have norm : ∀ M, M ≤ 2 ^ 24 → (grid (n / d) = 1 ∨ 2 ^ 23 ≤ M) → M % 2 = 0 →
      ∃ m' j, m' < 2 ^ 24 ∧ M * grid (n / d) = m' * 2 ^ j ∧ m' % 2 = 0 ∧ (m' < 2 ^ 23 → j = 0) := by
    intro M hM hM2 he
    rcases Nat.lt_or_eq_of_le hM with h | rfl
    · rcases hM2 with h5 | h5
      · exact ⟨M, 0, h, by rw [h5]; rfl, he, fun _ => rfl⟩
      · exact ⟨M, _, h, rfl, he, fun h6 => by omega⟩
    · exact ⟨2 ^ 23, (n / d).log2 - 23 + 1, by decide, by unfold grid; rw [Nat.pow_succ]; ring, by decide, fun h6 => by omega⟩
  have near : ∀ c, c ≤ m ∨ m + 1 ≤ c := fun c => by omega
  generalize hD : d * grid (n / d) = D at *
  have lo : ∀ c, c ≤ m → D * c ≤ D * m := fun c h => Nat.mul_le_mul_left _ h
  have hi : ∀ c, m + 1 ≤ c → D * m + D ≤ D * c := fun c h => by rw [← Nat.mul_succ]; exact Nat.mul_le_mul_left _ h
  have eD : ∀ M, M * grid (n / d) * d = D * M := fun M => by rw [← hD]; ring
  rcases h4 with ⟨h4, e⟩ | ⟨h4, e⟩
  · rw [e]
    refine ⟨isF32_of (by omega), ?_, ?_⟩
    · intro k' hk
      unfold gap
      rw [eD]
      rcases key k' hk with ⟨c, e1, _⟩ | hlt
      · rw [e1]
        rcases near c with h | h
        · have := lo c h; omega
        · have := hi c h; omega
      · omega
    · intro k' hk hne hgap
      unfold gap at hgap
      rw [eD] at hgap
      rcases key k' hk with ⟨c, e1, e2⟩ | hlt
      · rw [e1] at hgap
        have hc : c ≠ m := fun h => hne (by rw [e2, h])
        have : m % 2 = 0 := by
          rcases near c with h | h
          · have h6 : D * c + D ≤ D * m := by rw [← Nat.mul_succ]; exact Nat.mul_le_mul_left _ (by omega)
            omega
          · have := hi c h; omega
        exact norm m (by omega) s2 this
      · omega
  · rw [e]
    refine ⟨isF32_of (by omega), ?_, ?_⟩
    · intro k' hk
      unfold gap
      rw [eD, Nat.mul_succ]
      rcases key k' hk with ⟨c, e1, _⟩ | hlt
      · rw [e1]
        rcases near c with h | h
        · have := lo c h; omega
        · have := hi c h; omega
      · omega
    · intro k' hk hne hgap
      unfold gap at hgap
      rw [eD, Nat.mul_succ] at hgap
      rcases key k' hk with ⟨c, e1, e2⟩ | hlt
      · rw [e1] at hgap
        have hc : c ≠ m + 1 := fun h => hne (by rw [e2, h])
        have : (m + 1) % 2 = 0 := by
          rcases near c with h | h
          · have := lo c h; omega
          · have h6 : D * m + D + D ≤ D * c := by rw [← Nat.mul_succ, ← Nat.mul_succ]; exact Nat.mul_le_mul_left _ (by omega)
            omega
        exact norm (m + 1) (by omega) (by rcases s2 with s2 | s2; exact .inl s2; exact .inr (by omega)) this
      · omega

/-- What is a `f32` already stays as it is. -/
theorem round_exact {n d k : Nat} (hd : 0 < d) (hk : IsF32 k) (h : n = k * d) : (round n d).units = k := by
  have h1 := (round_rounded (n := n) hd).nearest k hk
  unfold gap at h1
  subst h
  have h2 : (round (k * d) d).units * d = k * d := by omega
  exact Nat.eq_of_mul_eq_mul_right hd h2

theorem round_le {n d k : Nat} (hd : 0 < d) (hk : IsF32 k) (h : n ≤ k * d) : (round n d).units ≤ k := by
  have h1 := (round_rounded (n := n) hd).nearest k hk
  unfold gap at h1
  refine Nat.le_of_not_lt fun hlt => ?_
  have h2 : (k + 1) * d ≤ (round n d).units * d := Nat.mul_le_mul_right _ hlt
  rw [Nat.succ_mul] at h2
  omega

theorem le_round {n d k : Nat} (hd : 0 < d) (hk : IsF32 k) (h : k * d ≤ n) : k ≤ (round n d).units := by
  have h1 := (round_rounded (n := n) hd).nearest k hk
  unfold gap at h1
  refine Nat.le_of_not_lt fun hlt => ?_
  have h2 : ((round n d).units + 1) * d ≤ k * d := Nat.mul_le_mul_right _ hlt
  rw [Nat.succ_mul] at h2
  omega

/-- The error is at most half a step. -/
theorem round_gap {n d : Nat} (hd : 0 < d) : 2 ^ 24 * gap n d (round n d).units ≤ max n (2 ^ 23 * d) := by
  obtain ⟨m, r, h1, h2, h3, h4⟩ := round_eq n d
  have h3 := h3 hd
  have e1 : 2 * gap n d (round n d).units ≤ d * grid (n / d) := by
    unfold gap
    have eD : ∀ M, M * grid (n / d) * d = d * grid (n / d) * M := fun M => by ring
    rcases h4 with ⟨h4, e⟩ | ⟨h4, e⟩ <;> rw [e, eD]
    · generalize d * grid (n / d) = D at *; omega
    · rw [Nat.mul_succ]; generalize d * grid (n / d) = D at *; omega
  rcases @grid_le (n / d) with h | ⟨h, _⟩
  · rw [h] at e1
    omega
  · have : d * grid (n / d) * 2 ^ 23 ≤ n := by
      rw [Nat.mul_assoc]
      exact Nat.le_trans (Nat.mul_le_mul_left _ h) (Nat.mul_div_le n d)
    omega

/-! ### The error in numbers -/

/-- The number. -/
def val (a : F32) : ℚ := (a.units : ℚ) / one

theorem one_pos : (0 : ℚ) < one := by exact_mod_cast (show 0 < one by decide)

theorem one_large : (2 : ℚ) ^ 140 ≤ one := by exact_mod_cast (show 2 ^ 140 ≤ one by decide)

theorem isF32_one {n : Nat} (h : n < 2 ^ 24) : IsF32 (n * one) := ⟨n, 149, h, rfl⟩


theorem val_nonneg (a : F32) : 0 ≤ a.val := by unfold val; positivity

theorem val_le {a : F32} {k : Nat} : a.val ≤ k ↔ a.units ≤ k * one := by
  unfold val
  rw [div_le_iff₀ one_pos]
  exact_mod_cast Iff.rfl

theorem le_val {a : F32} {k : Nat} : (k : ℚ) ≤ a.val ↔ k * one ≤ a.units := by
  unfold val
  rw [le_div_iff₀ one_pos]
  exact_mod_cast Iff.rfl

theorem gap_abs (n d k : Nat) : (gap n d k : ℚ) = |(k : ℚ) * d - n| := by
  unfold gap
  rcases Nat.le_total (k * d) n with h | h
  · have hq : ((k * d : Nat) : ℚ) ≤ n := by exact_mod_cast h
    push_cast at hq
    rw [Nat.sub_eq_zero_of_le h, Nat.zero_add, abs_of_nonpos (by linarith)]
    push_cast [h]; ring
  · have hq : (n : ℚ) ≤ ((k * d : Nat) : ℚ) := by exact_mod_cast h
    push_cast at hq
    rw [Nat.sub_eq_zero_of_le h, Nat.add_zero, abs_of_nonneg (by linarith)]
    push_cast [h]; ring

/-- Slightly more than the largest relative error, 2^-24. -/
def eps : ℚ := 1 / 16700000

theorem val_round {n d : Nat} (hd : 0 < d) {x : ℚ} (hx : x = (n : ℚ) / d / one) : |(round n d).val - x| ≤ x / 2 ^ 24 + 1 / (2 * one) := by
  have h := @round_gap n d hd
  have hq : (2 : ℚ) ^ 24 * |((round n d).units : ℚ) * d - n| ≤ n + 2 ^ 23 * d := by
    rw [← gap_abs]
    have h2 : 2 ^ 24 * gap n d (round n d).units ≤ n + 2 ^ 23 * d := Nat.le_trans h (by omega)
    exact_mod_cast h2
  have hd' : (0 : ℚ) < d := by exact_mod_cast hd
  have p := one_pos
  have e : (round n d).val - x = (((round n d).units : ℚ) * d - n) / (d * one) := by
    rw [hx]; unfold val; field_simp
  have e2 : x / 2 ^ 24 + 1 / (2 * one) = (n + 2 ^ 23 * d) / (2 ^ 24 * (d * one)) := by
    rw [hx]; field_simp
  rw [e, e2, abs_div, abs_of_pos (a := (d : ℚ) * one) (by positivity), div_le_div_iff₀ (by positivity) (by positivity)]
  have h3 : (0 : ℚ) ≤ d * one := by positivity
  nlinarith [mul_le_mul_of_nonneg_right hq h3]

/-- How far a number may be off that is computed where the exact result is `x`. -/
def slack (x : ℚ) : ℚ := x / 2 ^ 24 + 1 / (2 * one)

theorem val_ofNat (n : Nat) (h : n < 2 ^ 24) : (ofNat n).val = n := by
  have e : (ofNat n).units = n * one := round_exact (by decide) (isF32_one h) (by rw [Nat.mul_one, Nat.mul_comm])
  unfold val
  rw [e]
  have p := one_pos
  push_cast
  field_simp

theorem val_lit (p q : Nat) (hq : 0 < q) : |(lit p q).val - (p : ℚ) / q| ≤ slack ((p : ℚ) / q) := by
  have hq' : (0 : ℚ) < q := by exact_mod_cast hq
  have p := one_pos
  exact val_round hq (by push_cast; field_simp)

theorem val_mul (a b : F32) : |(mul a b).val - a.val * b.val| ≤ slack (a.val * b.val) := by
  refine val_round (by exact_mod_cast one_pos) ?_
  have p := one_pos
  unfold val; push_cast; field_simp

theorem val_div (a b : F32) (hb : 0 < b.units) : |(div a b).val - a.val / b.val| ≤ slack (a.val / b.val) := by
  have hb' : (0 : ℚ) < b.units := by exact_mod_cast hb
  refine val_round hb ?_
  have p := one_pos
  unfold val; push_cast; field_simp

theorem val_add (a b : F32) : |(add a b).val - (a.val + b.val)| ≤ slack (a.val + b.val) := by
  refine val_round (by decide) ?_
  unfold val; push_cast; ring

theorem val_sub (a b : F32) (h : b.units ≤ a.units) : |(sub a b).val - (a.val - b.val)| ≤ slack (a.val - b.val) := by
  refine val_round (by decide) ?_
  unfold val; push_cast [h]; ring

theorem slack_le {x M : ℚ} (h : x ≤ M) (hM : 1 / 1000 ≤ M) : slack x ≤ M * eps := by
  unfold slack eps
  have h1 : (1 : ℚ) / (2 * one) ≤ M / 2 ^ 100 := by
    have p := one_pos
    have l := one_large
    rw [div_le_div_iff₀ (by positivity) (by positivity)]
    have : (1 : ℚ) * 2 ^ 100 ≤ 1 / 1000 * 2 ^ 140 := by norm_num
    nlinarith [mul_le_mul_of_nonneg_right hM (by positivity : (0 : ℚ) ≤ 2 * one)]
  have h2 : x / 2 ^ 24 ≤ M / 2 ^ 24 := div_le_div_of_nonneg_right h (by positivity)
  have h3 : M / 2 ^ 24 + M / 2 ^ 100 ≤ M * (1 / 16700000) := by
    have : (1 : ℚ) / 2 ^ 24 + 1 / 2 ^ 100 ≤ 1 / 16700000 := by norm_num
    have hM0 : 0 ≤ M := le_trans (by norm_num) hM
    nlinarith [mul_le_mul_of_nonneg_left this hM0]
  linarith

/-- The error of a product of two numbers. -/
theorem err_mul {a b : F32} {x y e f M N : ℚ} (ha : |a.val - x| ≤ e) (hb : |b.val - y| ≤ f) (hx : 0 ≤ x) (hxM : x + e ≤ M) (hy : 0 ≤ y) (hyN : y + f ≤ N)
    (hMN : 1 / 1000 ≤ M * N) : |(mul a b).val - x * y| ≤ M * f + N * e + M * N * eps := by
  have ha' := abs_le.1 ha
  have hb' := abs_le.1 hb
  have a0 := val_nonneg a
  have b0 := val_nonneg b
  have e0 : 0 ≤ e := le_trans (abs_nonneg _) ha
  have f0 : 0 ≤ f := le_trans (abs_nonneg _) hb
  have aM : a.val ≤ M := by linarith
  have bN : b.val ≤ N := by linarith
  have hp : a.val * b.val ≤ M * N := mul_le_mul aM bN b0 (le_trans a0 aM)
  have h1 := le_trans (val_mul a b) (slack_le hp hMN)
  have h2 : |a.val * b.val - x * y| ≤ M * f + N * e := by
    have e1 : a.val * b.val - x * y = a.val * (b.val - y) + y * (a.val - x) := by ring
    rw [e1]
    refine le_trans (abs_add_le _ _) ?_
    rw [abs_mul, abs_mul, abs_of_nonneg a0, abs_of_nonneg hy]
    have p1 : a.val * |b.val - y| ≤ M * f := mul_le_mul aM hb (abs_nonneg _) (le_trans a0 aM)
    have p2 : y * |a.val - x| ≤ N * e := mul_le_mul (by linarith) ha (abs_nonneg _) (by linarith)
    linarith
  have e2 : (mul a b).val - x * y = ((mul a b).val - a.val * b.val) + (a.val * b.val - x * y) := by ring
  rw [e2]
  refine le_trans (abs_add_le _ _) ?_
  linarith

/-- The error of a quotient by a whole number. -/
theorem err_div {a : F32} {k : Nat} (hk : 0 < k) (hk' : k < 2 ^ 24) {x e M : ℚ} (ha : |a.val - x| ≤ e) (hxM : (x + e) / k ≤ M) (hM : 1 / 1000 ≤ M) :
    |(div a (ofNat k)).val - x / k| ≤ e / k + M * eps := by
  have hv := val_ofNat k hk'
  have hu : 0 < (ofNat k).units := by
    have : (ofNat k).units = k * one := round_exact (by decide) (isF32_one hk') (by rw [Nat.mul_one, Nat.mul_comm])
    rw [this]; exact Nat.mul_pos hk (by exact_mod_cast one_pos)
  have hkq : (0 : ℚ) < k := by exact_mod_cast hk
  have ha' := abs_le.1 ha
  have h1 := val_div a (ofNat k) hu
  rw [hv] at h1
  have h2 : a.val / k ≤ M := le_trans (div_le_div_of_nonneg_right (by linarith) hkq.le) hxM
  have h3 := le_trans h1 (slack_le h2 hM)
  have e2 : (div a (ofNat k)).val - x / k = ((div a (ofNat k)).val - a.val / k) + (a.val - x) / k := by ring
  rw [e2]
  refine le_trans (abs_add_le _ _) ?_
  rw [abs_div, abs_of_pos hkq]
  have := div_le_div_of_nonneg_right ha hkq.le
  linarith

theorem err_add {a b : F32} {x y e f M : ℚ} (ha : |a.val - x| ≤ e) (hb : |b.val - y| ≤ f) (hM : x + e + (y + f) ≤ M) (hM' : 1 / 1000 ≤ M) :
    |(add a b).val - (x + y)| ≤ e + f + M * eps := by
  have ha' := abs_le.1 ha
  have hb' := abs_le.1 hb
  have h1 := abs_le.1 (le_trans (val_add a b) (slack_le (M := M) (by linarith) hM'))
  exact abs_le.2 ⟨by linarith, by linarith⟩

theorem err_sub {a b : F32} {x y e f M : ℚ} (h : b.units ≤ a.units) (ha : |a.val - x| ≤ e) (hb : |b.val - y| ≤ f) (hM : x - y + e + f ≤ M) (hM' : 1 / 1000 ≤ M) :
    |(sub a b).val - (x - y)| ≤ e + f + M * eps := by
  have ha' := abs_le.1 ha
  have hb' := abs_le.1 hb
  have h1 := abs_le.1 (le_trans (val_sub a b h) (slack_le (M := M) (by linarith) hM'))
  exact abs_le.2 ⟨by linarith, by linarith⟩

theorem err_ofNat {n : Nat} (h : n < 2 ^ 24) : |(ofNat n).val - n| ≤ 0 := by rw [val_ofNat n h]; simp

/-! ### Whole numbers -/

/-- `n / d` lies at least `e` above its floor `k`, and at least that below `k + 1`. -/
theorem toU32_of {a : F32} {x e : ℚ} (h : |a.val - x| ≤ e) {k : Nat} (hk : k < 4294967295) (h1 : (k : ℚ) + e ≤ x) (h2 : x + e < k + 1) : a.toU32 = k := by
  have h' := abs_le.1 h
  have l1 : (k : ℚ) ≤ a.val := by linarith
  have l2 : ¬ ((k + 1 : Nat) : ℚ) ≤ a.val := by push_cast; linarith
  rw [le_val] at l1 l2
  have e1 : a.units / one = k := by
    refine Nat.div_eq_of_lt_le l1 ?_
    omega
  unfold toU32
  rw [e1]; omega

theorem roundU8_of {a : F32} {x e : ℚ} (h : |a.val - x| ≤ e) {k : Nat} (hk : k ≤ 255) (h1 : (k : ℚ) + e ≤ x + 1 / 2) (h2 : x + e + 1 / 2 < k + 1) :
    a.roundU8 = UInt8.ofNat k := by
  have h' := abs_le.1 h
  have v : (a.units : ℚ) = a.val * one := by have p := one_pos; unfold val; field_simp
  have p := one_pos
  have e1 : (2 * a.units + one) / (2 * one) = k := by
    refine Nat.div_eq_of_lt_le ?_ ?_
    · have : (k * (2 * one) : ℚ) ≤ 2 * a.units + one := by rw [v]; nlinarith
      exact_mod_cast this
    · have : (2 * a.units + one : ℚ) < (k + 1) * (2 * one) := by rw [v]; nlinarith
      exact_mod_cast this
  unfold roundU8
  rw [Nat.add_comm one, e1, Nat.min_eq_left hk]

end F32
end Thermal
