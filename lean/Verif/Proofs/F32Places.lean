import Verif.Proofs.F32
import Verif.Model.Html
import Verif.Model.Apply
/-
The places on the paper that are computed in `f32`: baselines, strike-through lines, source coordinates of enlarged characters.
-/
namespace Thermal
open Spec
namespace F32

theorem units_ofNat {n : Nat} (h : n < 2 ^ 24) : (ofNat n).units = n * one :=
  round_exact (by decide) (isF32_one h) (by rw [Nat.mul_one, Nat.mul_comm])

/-- A constant is near a fraction. -/
theorem near_of_gap {a : F32} {n d p q : Nat} (hd : 0 < d) (hq : 0 < q) (h : gap (n * one) d a.units * q ≤ p * d * one) :
    |a.val - (n : ℚ) / d| ≤ (p : ℚ) / q := by
  have o := one_pos
  have hd' : (0 : ℚ) < d := by exact_mod_cast hd
  have hq' : (0 : ℚ) < q := by exact_mod_cast hq
  have e : a.val - (n : ℚ) / d = ((a.units : ℚ) * d - n * one) / (d * one) := by unfold val; field_simp
  have g := gap_abs (n * one) d a.units
  push_cast at g
  rw [e, abs_div, abs_of_pos (by positivity : (0 : ℚ) < d * one), ← g, div_le_div_iff₀ (by positivity) hq']
  have : ((gap (n * one) d a.units * q : Nat) : ℚ) ≤ ((p * d * one : Nat) : ℚ) := by exact_mod_cast h
  push_cast at this
  linarith

/-- A number near `n / d`, which is not whole, has its floor. -/
theorem toU32_floor {a : F32} {n d : Nat} {e : ℚ} (hd : 0 < d) (h : |a.val - (n : ℚ) / d| ≤ e) (he : e * d < 1) (hn : n < 4294967295) (hr : n % d ≠ 0) :
    a.toU32 = n / d := by
  have hd' : (0 : ℚ) < d := by exact_mod_cast hd
  have key : (n : ℚ) = d * (n / d : Nat) + (n % d : Nat) := by exact_mod_cast (Nat.div_add_mod n d).symm
  have r1 : (1 : ℚ) ≤ (n % d : Nat) := by exact_mod_cast Nat.one_le_iff_ne_zero.2 hr
  have r2 : ((n % d : Nat) : ℚ) + 1 ≤ d := by exact_mod_cast Nat.mod_lt n hd
  have x : (n : ℚ) / d = (n / d : Nat) + (n % d : Nat) / d := by rw [key]; field_simp
  have e1 : e < 1 / d := by rw [lt_div_iff₀ hd']; exact he
  refine toU32_of h (lt_of_le_of_lt (Nat.div_le_self ..) hn) ?_ ?_
  · have : (1 : ℚ) / d ≤ (n % d : Nat) / d := div_le_div_of_nonneg_right r1 hd'.le
    linarith
  · have : ((n % d : Nat) : ℚ) / d + 1 / d ≤ 1 := by rw [← add_div, div_le_one hd']; exact r2
    linarith

/-- A number near `n / d` has its floor, or one less where `n / d` is whole. -/
theorem toU32_near {a : F32} {n d : Nat} {e : ℚ} (hd : 0 < d) (h : |a.val - (n : ℚ) / d| ≤ e) (he : e * d < 1) (he' : e < 1) (hn : n < 4294967295) :
    a.toU32 = n / d ∨ n % d = 0 ∧ a.toU32 + 1 = n / d := by
  by_cases hr : n % d = 0
  · have hd' : (0 : ℚ) < d := by exact_mod_cast hd
    have x : (n : ℚ) / d = (n / d : Nat) := by
      have key : (n : ℚ) = d * (n / d : Nat) := by exact_mod_cast (by rw [Nat.mul_div_cancel' (Nat.dvd_of_mod_eq_zero hr)])
      rw [key]; field_simp
    rw [x] at h
    have h' := abs_le.1 h
    have hq : n / d < 4294967295 := lt_of_le_of_lt (Nat.div_le_self ..) hn
    generalize n / d = k at h h' hq ⊢
    have u1 : ¬ ((k + 1 : Nat) : ℚ) ≤ a.val := by push_cast; linarith
    rw [le_val] at u1
    by_cases u2 : k * one ≤ a.units
    · left
      have : a.units / one = k := Nat.div_eq_of_lt_le u2 (by omega)
      unfold toU32
      rw [this]; omega
    · right
      refine ⟨hr, ?_⟩
      cases k with
      | zero => omega
      | succ k =>
        have u3 : ((k : Nat) : ℚ) ≤ a.val := by push_cast at h'; linarith
        rw [le_val] at u3
        have : a.units / one = k := Nat.div_eq_of_lt_le u3 (by omega)
        unfold toU32
        rw [this]; omega
  · exact .inl (toU32_floor hd h he hn hr)

/-- A whole number times a constant. -/
theorem err_times {r : F32} {n d h : Nat} (hd : 0 < d) (hnd : 3 * n ≤ 2 * d) (hh : h ≤ 255) (hr : |r.val - (n : ℚ) / d| ≤ 3 / 100000000) :
    |(mul (ofNat h) r).val - (h : ℚ) * (n / d)| ≤ 1 / 54000 := by
  have hd' : (0 : ℚ) < d := by exact_mod_cast hd
  have y0 : (0 : ℚ) ≤ (n : ℚ) / d := by positivity
  have y1 : (n : ℚ) / d ≤ 2 / 3 := by
    rw [div_le_div_iff₀ hd' (by norm_num)]
    have : ((3 * n : Nat) : ℚ) ≤ ((2 * d : Nat) : ℚ) := by exact_mod_cast hnd
    push_cast at this; linarith
  have h0 : (0 : ℚ) ≤ h := Nat.cast_nonneg _
  have hh' : (h : ℚ) ≤ 255 := by exact_mod_cast hh
  have := err_mul (M := 255) (N := 667 / 1000) (err_ofNat (n := h) (by omega)) hr h0 (by linarith) y0 (by linarith) (by norm_num)
  refine le_trans this ?_
  unfold eps
  norm_num

theorem mul_mono {a b r : F32} (h : a.units ≤ b.units) : (mul a r).units ≤ (mul b r).units := by
  have o : 0 < one := by decide
  obtain ⟨m, j, hm, e⟩ := (round_rounded (n := r.units * b.units) o).isF32
  by_cases hc : r.units * a.units ≤ (mul b r).units * one
  · exact round_le o ⟨m, j, hm, e⟩ hc
  · refine Nat.le_of_not_lt fun hlt => ?_
    have hne : r.units * a.units ≠ r.units * b.units := by
      intro he
      unfold mul at hlt
      rw [he] at hlt
      exact Nat.lt_irrefl _ hlt
    have n1 := (round_rounded (n := r.units * a.units) o).nearest _ (round_rounded (n := r.units * b.units) o).isF32
    have n2 := (round_rounded (n := r.units * b.units) o).nearest _ (round_rounded (n := r.units * a.units) o).isF32
    have hm : r.units * a.units ≤ r.units * b.units := Nat.mul_le_mul_left _ h
    have h2 : (mul b r).units * one < (mul a r).units * one := Nat.mul_lt_mul_of_pos_right hlt o
    change gap (r.units * a.units) one (mul a r).units ≤ gap (r.units * a.units) one (mul b r).units at n1
    change gap (r.units * b.units) one (mul b r).units ≤ gap (r.units * b.units) one (mul a r).units at n2
    unfold gap at n1 n2
    generalize (mul b r).units * one = B at *
    generalize (mul a r).units * one = A at *
    generalize r.units * a.units = x at *
    generalize r.units * b.units = y at *
    omega

theorem ofNat_mono {m n : Nat} (h : m ≤ n) (hn : n < 2 ^ 24) : (ofNat m).units ≤ (ofNat n).units := by
  rw [units_ofNat hn, units_ofNat (by omega)]
  exact Nat.mul_le_mul_right _ h

/-- The difference of two whole numbers, each times a constant. -/
theorem err_shift {r : F32} {n d g h : Nat} (hd : 0 < d) (hnd : 3 * n ≤ 2 * d) (hg : g ≤ 255) (hh : h ≤ g) (hr : |r.val - (n : ℚ) / d| ≤ 3 / 100000000) :
    |(sub (mul (ofNat g) r) (mul (ofNat h) r)).val - ((g - h) * n : Nat) / d| ≤ 1 / 20000 := by
  have hd' : (0 : ℚ) < d := by exact_mod_cast hd
  have y0 : (0 : ℚ) ≤ (n : ℚ) / d := by positivity
  have y1 : (n : ℚ) / d ≤ 2 / 3 := by
    rw [div_le_div_iff₀ hd' (by norm_num)]
    have : ((3 * n : Nat) : ℚ) ≤ ((2 * d : Nat) : ℚ) := by exact_mod_cast hnd
    push_cast at this; linarith
  have h0 : (0 : ℚ) ≤ h := Nat.cast_nonneg _
  have hg' : (g : ℚ) ≤ 255 := by exact_mod_cast hg
  have hh' : (h : ℚ) ≤ g := by exact_mod_cast hh
  have k1 := err_times hd hnd hg hr
  have k2 := err_times (h := h) hd hnd (by omega) hr
  have m1 : (g : ℚ) * (n / d) ≤ 170 := by nlinarith
  have m2 : (0 : ℚ) ≤ (h : ℚ) * (n / d) := by positivity
  have := err_sub (M := 171) (mul_mono (r := r) (ofNat_mono hh (by omega))) k1 k2 (by linarith) (by norm_num)
  have e : (((g - h) * n : Nat) : ℚ) / d = (g : ℚ) * (n / d) - h * (n / d) := by push_cast [hh]; ring
  rw [e]
  refine le_trans this ?_
  unfold eps
  norm_num

/-! ### Baselines -/

/-- The baseline ratio as a fraction. -/
def ratioOf : Font → Nat × Nat
  | .B => (7938, 15625)
  | .C => (3969, 12500)
  | _ => (3969, 6250)

theorem ratio_near (font : Font) : |(Canvas.baselineRatio font).val - ((ratioOf font).1 : ℚ) / (ratioOf font).2| ≤ 3 / 100000000 := by
  have key : ∀ {a : F32} {n d : Nat}, 0 < d → gap (n * one) d a.units * 100000000 ≤ 3 * d * one → |a.val - (n : ℚ) / d| ≤ 3 / 100000000 :=
    fun hd h => by exact_mod_cast near_of_gap hd (by decide) h
  cases font <;> exact key (by decide) (by decide +kernel)

theorem ratio_ok (font : Font) : 0 < (ratioOf font).2 ∧ 3 * (ratioOf font).1 ≤ 2 * (ratioOf font).2 ∧ (ratioOf font).2 ≤ 15625 ∧ (ratioOf font).1 ≤ 7938 ∧
    ∀ h, 0 < h → h < 256 → h * (ratioOf font).1 % (ratioOf font).2 ≠ 0 := by
  cases font <;> refine ⟨by decide, by decide, by decide, by decide, ?_⟩ <;> (intro h h1 h2; simp only [ratioOf]; omega)

theorem toU32_zero {a : F32} (h : a.units = 0) : a.toU32 = 0 := by unfold toU32; rw [h]; rfl

theorem ofNat_zero : (ofNat 0).units = 0 := by rw [units_ofNat (by decide), Nat.zero_mul]

theorem mul_zero_left {r : F32} : (mul (ofNat 0) r).units = 0 := by
  unfold mul
  rw [ofNat_zero, Nat.mul_zero]
  exact round_exact (by decide) ⟨0, 0, by decide, rfl⟩ rfl

/-- The baseline of a character. -/
theorem baseline_exact (font : Font) {h : Nat} (hh : h ≤ 255) : Canvas.baseline font h = h * (ratioOf font).1 / (ratioOf font).2 := by
  obtain ⟨r1, r2, r3, r4, r5⟩ := ratio_ok font
  by_cases h0 : h = 0
  · subst h0
    rw [Nat.zero_mul, Nat.zero_div]
    exact toU32_zero mul_zero_left
  · have k := err_times (h := h) r1 r2 hh (ratio_near font)
    have e : (h : ℚ) * ((ratioOf font).1 / (ratioOf font).2) = ((h * (ratioOf font).1 : Nat) : ℚ) / (ratioOf font).2 := by push_cast; ring
    rw [e] at k
    have r3' : ((ratioOf font).2 : ℚ) ≤ 15625 := by exact_mod_cast r3
    refine toU32_floor r1 k (by linarith) ?_ (r5 h (by omega) (by omega))
    exact lt_of_le_of_lt (Nat.mul_le_mul hh r4) (by decide)

/-- How far a smaller character is below the top of its line. -/
theorem shift_exact (font : Font) {g h : Nat} (hg : g ≤ 255) (hh : h < g) :
    Canvas.baselineShift font g h = (g - h) * (ratioOf font).1 / (ratioOf font).2 := by
  obtain ⟨r1, r2, r3, r4, r5⟩ := ratio_ok font
  have k := err_shift r1 r2 hg (le_of_lt hh) (ratio_near font)
  have r3' : ((ratioOf font).2 : ℚ) ≤ 15625 := by exact_mod_cast r3
  refine toU32_floor r1 k (by linarith) ?_ (r5 (g - h) (by omega) (by omega))
  exact lt_of_le_of_lt (Nat.mul_le_mul (by omega : g - h ≤ 255) r4) (by decide)

/-- The strike-through line. -/
theorem strike_exact {h : Nat} (hh : h ≤ 255) : Canvas.strikeTop h = h * 2 / 5 := by
  have : ∀ n : Fin 256, Canvas.strikeTop n.1 = n.1 * 2 / 5 := by decide +kernel
  exact this ⟨h, by omega⟩

/-! ### Enlarged characters -/

/-- The source coordinate is the exact one, or one less where that is whole. -/
theorem source_near {s n m : Nat} (hs : s < m) (hn : m ≤ n) (h : n ≤ 192) :
    Canvas.source s n m = s * n / m ∨ s * n % m = 0 ∧ Canvas.source s n m + 1 = s * n / m := by
  have hm : (0 : ℚ) < m := by exact_mod_cast (by omega : 0 < m)
  have hm1 : (1 : ℚ) ≤ m := by exact_mod_cast (by omega : 1 ≤ m)
  have hn' : (n : ℚ) ≤ 192 := by exact_mod_cast h
  have hm' : (m : ℚ) ≤ 192 := by exact_mod_cast (by omega : m ≤ 192)
  have hs' : (s : ℚ) ≤ 192 := by exact_mod_cast (by omega : s ≤ 192)
  have s0 : (0 : ℚ) ≤ s := Nat.cast_nonneg _
  have n0 : (0 : ℚ) ≤ n := Nat.cast_nonneg _
  have q1 : (n : ℚ) / m ≤ 192 := by rw [div_le_iff₀ hm]; nlinarith
  have k1 := err_div (k := m) (x := n) (e := 0) (M := 192) (by omega) (by omega) (err_ofNat (by omega)) (by rw [add_zero]; exact q1) (by norm_num)
  rw [zero_div, zero_add] at k1
  have q0 : (0 : ℚ) ≤ (n : ℚ) / m := by positivity
  have k2 := err_mul (M := 192) (N := 193) (err_ofNat (n := s) (by omega)) k1 s0 (by linarith) q0 (by unfold eps; linarith) (by norm_num)
  have e : (s : ℚ) * (n / m) = ((s * n : Nat) : ℚ) / m := by push_cast; ring
  rw [e] at k2
  refine toU32_near (by omega) k2 ?_ (by unfold eps; norm_num) (lt_of_le_of_lt (Nat.mul_le_mul (by omega : s ≤ 192) h) (by decide))
  unfold eps
  nlinarith

/-- It lies in the enlarged character. -/
theorem source_lt {s n m : Nat} (hs : s < m) (hn : m ≤ n) (h : n ≤ 192) : Canvas.source s n m < n := by
  have : s * n / m < n := (Nat.div_lt_iff_lt_mul (by omega)).2 (by rw [Nat.mul_comm n m]; exact (Nat.mul_lt_mul_right (by omega)).2 hs)
  rcases source_near hs hn h with e | ⟨_, e⟩ <;> omega

/-! ### Web pages -/

/-- The heights of characters. -/
def heights : List Nat := [24, 48, 72, 96, 120, 144, 168, 192, 17, 34, 51, 68, 85, 102, 119, 136]

/-- The baseline offset on a web page. -/
theorem web_exact {g h : Nat} (hg : g ∈ heights) (hh : h ∈ heights) : Html.baselineOffset g h = (g - h) * 78 / 100 := by
  have : ∀ a ∈ heights, ∀ b ∈ heights, Html.baselineOffset a b = (a - b) * 78 / 100 := by decide +kernel
  exact this g hg h hh

/-! ### Settings -/

/-- Line widths. -/
theorem points_exact (c : Context) {n : Nat} (hd : c.graphics.dotsPerInch ∈ [180, 203, 360]) (hn : n = 1 ∨ n = 2) :
    c.pointsToPixels n = n * c.graphics.dotsPerInch / 96 := by
  have : ∀ d ∈ [180, 203, 360], ∀ n ∈ [1, 2], (mul (ofNat n) (div (ofNat d) (ofNat 96))).toU32 = n * d / 96 := by decide +kernel
  exact this _ hd n (by rcases hn with rfl | rfl <;> decide)

/-- The size of the paper. -/
theorem paper_exact : (mul (ofNat 203) (lit 1 10)).toU32 = 20 ∧ (mul (ofNat 203) (lit 32 10)).toU32 = 649 := by decide +kernel

/-- Halves. -/
theorem half_exact {n : Nat} (h : n < 2 ^ 24) : (div (ofNat n) (ofNat 2)).toU32 = n / 2 := by
  have e : (div (ofNat n) (ofNat 2)).units = n * 2 ^ 148 := by
    unfold div
    rw [units_ofNat h, units_ofNat (by decide)]
    refine round_exact (by decide) ⟨n, 148, h, rfl⟩ ?_
    rw [show (2 : Nat) * one = 2 ^ 148 * 4 by decide, show one * (n * one) = n * (one * one) by ring, show one * one = 2 ^ 148 * (2 ^ 148 * 4) by decide +kernel]
    ring
  have d : n * 2 ^ 148 / one = n / 2 := by
    rw [show one = 2 * 2 ^ 148 by decide]
    exact Nat.mul_div_mul_right _ _ (by decide)
  unfold toU32
  rw [e, d]; omega

/-- The error correction of a PDF417 symbol given as a ratio. -/
theorem pdf417_exact {count n : Nat} (level : Nat) (hc : count ≤ 65535) (hn : n ≤ 255) : pdf417Level count n level = if count * n > 40000 then 8 else 7 := by
  have hp : count * n ≤ 65535 * 255 := Nat.mul_le_mul hc hn
  have hp' : count * n < 2 ^ 24 := lt_of_le_of_lt hp (by decide)
  have e : mul (ofNat count) (ofNat n) = ofNat (count * n) := by
    have : (mul (ofNat count) (ofNat n)).units = count * n * one := by
      unfold mul
      rw [units_ofNat (by omega), units_ofNat (by omega)]
      exact round_exact (by decide) (isF32_one hp') (by ring)
    have h2 := units_ofNat hp'
    cases h3 : mul (ofNat count) (ofNat n); cases h4 : ofNat (count * n)
    rw [h3] at this; rw [h4] at h2
    simp only at this h2
    rw [this, h2]
  have hl : (lit 1 100).units * 40000 ≤ 400 * one ∧ 51201 * 2 ^ 142 ≤ (lit 1 100).units * 40001 := by decide +kernel
  have low : ∀ p, p ≤ 40000 → (lit 1 100).units * (p * one) ≤ 400 * one * one := fun p hp => by
    rw [← Nat.mul_assoc]
    exact Nat.mul_le_mul_right _ (le_trans (Nat.mul_le_mul_left _ hp) hl.1)
  have high : ∀ p, 40001 ≤ p → 51201 * 2 ^ 142 * one ≤ (lit 1 100).units * (p * one) := fun p hp => by
    rw [← Nat.mul_assoc _ p]
    exact Nat.mul_le_mul_right _ (le_trans hl.2 (Nat.mul_le_mul_left _ hp))
  unfold pdf417Level
  rw [e]
  dsimp only
  generalize count * n = p at hp hp' ⊢
  have hu : (mul (ofNat p) (lit 1 100)).units = (round ((lit 1 100).units * (p * one)) one).units := by unfold mul; rw [units_ofNat hp']
  have l400 : (ofNat 400).units = 400 * one := units_ofNat (by decide)
  have l401 : (ofNat 401).units = 401 * one := units_ofNat (by decide)
  by_cases h : p > 40000
  · rw [if_pos h, if_pos]
    unfold lt
    rw [decide_eq_true_eq, l400, hu]
    exact lt_of_lt_of_le (by decide) (le_round (k := 51201 * 2 ^ 142) (by decide) ⟨51201, 142, by decide, rfl⟩ (high p h))
  · rw [if_neg h, if_neg, if_pos]
    · unfold lt
      rw [decide_eq_true_eq, l401, hu]
      refine lt_of_le_of_lt (round_le (k := 400 * one) (by decide) (isF32_one (by decide)) ?_) (by decide)
      exact low p (by omega)
    · unfold lt
      rw [decide_eq_true_eq, l400, hu, Nat.not_lt]
      refine round_le (k := 400 * one) (by decide) (isF32_one (by decide)) ?_
      exact low p (by omega)

end F32
end Thermal
