import Verif.Proofs.F32
import Verif.Model.Color
/-
The mixing of colours in `f32` is exact rounding.
-/
namespace Thermal
open Spec
namespace F32

theorem err_alpha {a : Nat} (h : a ≤ 255) : |(div (ofNat a) (ofNat 255)).val - (a : ℚ) / 255| ≤ eps := by
  have h' : (a : ℚ) ≤ 255 := by exact_mod_cast h
  have := err_div (k := 255) (x := a) (e := 0) (M := 1) (by decide) (by decide) (err_ofNat (by omega)) (by push_cast; linarith) (by norm_num)
  push_cast at this
  linarith

theorem alpha_le {a : Nat} (h : a ≤ 255) : (div (ofNat a) (ofNat 255)).units ≤ (ofNat 1).units := by
  have e1 : ∀ n, n < 2 ^ 24 → (ofNat n).units = n * one := fun n hn => round_exact (by decide) (isF32_one hn) (by rw [Nat.mul_one, Nat.mul_comm])
  rw [e1 1 (by decide)]
  unfold div
  rw [e1 255 (by decide), e1 a (by omega)]
  exact round_le (by decide) (isF32_one (by decide)) (by
    rw [Nat.one_mul, Nat.mul_left_comm one 255, Nat.mul_left_comm one a]
    exact Nat.mul_le_mul_right _ h)

theorem blend_err {fg bg a : Nat} (hf : fg ≤ 255) (hb : bg ≤ 255) (ha : a ≤ 255) :
    |(blendF fg bg a).val - ((fg : ℚ) * a + bg * (255 - a)) / 255| ≤ 1 / 1000 := by
  have hf' : (fg : ℚ) ≤ 255 := by exact_mod_cast hf
  have hb' : (bg : ℚ) ≤ 255 := by exact_mod_cast hb
  have ha' : (a : ℚ) ≤ 255 := by exact_mod_cast ha
  have f0 : (0 : ℚ) ≤ fg := Nat.cast_nonneg _
  have b0 : (0 : ℚ) ≤ bg := Nat.cast_nonneg _
  have a0 : (0 : ℚ) ≤ a := Nat.cast_nonneg _
  have p : eps = 1 / 16700000 := rfl
  have k1 := err_alpha ha
  have a1 : (a : ℚ) / 255 ≤ 1 := by rw [div_le_one (by norm_num)]; exact ha'
  have a2 : (0 : ℚ) ≤ a / 255 := by positivity
  have k2 := err_mul (M := 255) (N := 2) (err_ofNat (n := fg) (by omega)) k1 f0 (by linarith) a2 (by rw [p]; linarith) (by norm_num)
  have k3 := err_sub (M := 2) (alpha_le ha) (err_ofNat (n := 1) (by decide)) k1 (by push_cast; rw [p]; linarith) (by norm_num)
  have k4 := err_mul (M := 255) (N := 2) (err_ofNat (n := bg) (by omega)) k3 b0 (by linarith) (by push_cast; linarith) (by push_cast; rw [p]; linarith) (by norm_num)
  have m1 : (fg : ℚ) * (a / 255) ≤ 255 := by nlinarith
  have m2 : (bg : ℚ) * (((1 : Nat) : ℚ) - a / 255) ≤ 255 := by push_cast; nlinarith
  have k5 := err_add (M := 512) k2 k4 (by rw [p]; linarith) (by norm_num)
  have e : ((fg : ℚ) * a + bg * (255 - a)) / 255 = fg * (a / 255) + bg * (((1 : Nat) : ℚ) - a / 255) := by push_cast; field_simp
  rw [e]
  refine le_trans k5 ?_
  rw [p]; norm_num

/-- Blending in `f32` rounds the exact value. -/
theorem blend_exact {fg bg a : Nat} (hf : fg ≤ 255) (hb : bg ≤ 255) (ha : a ≤ 255) :
    (blendF fg bg a).roundU8 = UInt8.ofNat ((2 * (fg * a + bg * (255 - a)) + 255) / 510) := by
  have h := blend_err hf hb ha
  have e : ((fg : ℚ) * a + bg * (255 - a)) / 255 = ((fg * a + bg * (255 - a) : Nat) : ℚ) / 255 := by push_cast [ha]; ring
  rw [e] at h
  have hle : fg * a + bg * (255 - a) ≤ 255 * 255 := by
    have h1 : fg * a ≤ 255 * a := Nat.mul_le_mul_right _ hf
    have h2 : bg * (255 - a) ≤ 255 * (255 - a) := Nat.mul_le_mul_right _ hb
    omega
  generalize fg * a + bg * (255 - a) = v at h hle ⊢
  -- `2 v` is never an odd multiple of 255
  have hk : (2 * v + 255) / 510 ≤ 255 := by omega
  have h1 : (2 * v + 255) / 510 * 510 + 1 ≤ 2 * v + 255 := by omega
  have h2 : 2 * v + 255 + 1 ≤ ((2 * v + 255) / 510 + 1) * 510 := by omega
  refine roundU8_of h hk ?_ ?_
  · generalize (2 * v + 255) / 510 = k at h1
    have : ((k : ℚ) * 510 + 1) ≤ 2 * v + 255 := by exact_mod_cast h1
    linarith
  · generalize (2 * v + 255) / 510 = k at h2
    have : (2 * (v : ℚ) + 255 + 1) ≤ (k + 1) * 510 := by exact_mod_cast h2
    linarith

theorem mul_err {bg fg a : Nat} (hb : bg ≤ 255) (hf : fg ≤ 255) (ha : a ≤ 255) :
    |(mulF bg fg a).val - (bg * fg * a : Nat) / 65025| ≤ 12 / 130050 := by
  have hf' : (fg : ℚ) ≤ 255 := by exact_mod_cast hf
  have hb' : (bg : ℚ) ≤ 255 := by exact_mod_cast hb
  have ha' : (a : ℚ) ≤ 255 := by exact_mod_cast ha
  have f0 : (0 : ℚ) ≤ fg := Nat.cast_nonneg _
  have b0 : (0 : ℚ) ≤ bg := Nat.cast_nonneg _
  have a0 : (0 : ℚ) ≤ a := Nat.cast_nonneg _
  have p : eps = 1 / 16700000 := rfl
  have k1 := err_alpha hb
  have b1 : (bg : ℚ) / 255 ≤ 1 := by rw [div_le_one (by norm_num)]; exact hb'
  have b2 : (0 : ℚ) ≤ bg / 255 := by positivity
  have k2 := err_mul (M := 1 + eps) (N := 255) k1 (err_ofNat (n := fg) (by omega)) b2 (by linarith) f0 (by linarith) (by rw [p]; norm_num)
  have c1 : (bg : ℚ) / 255 * fg ≤ 255 := by nlinarith
  have c0 : (0 : ℚ) ≤ bg / 255 * fg := by positivity
  have k3 := err_div (k := 255) (M := 1 + 3 * eps) (by decide) (by decide) k2 (by push_cast; rw [p]; rw [div_le_iff₀ (by norm_num)]; linarith) (by rw [p]; norm_num)
  push_cast at k3
  have k4 := err_alpha ha
  have a1 : (a : ℚ) / 255 ≤ 1 := by rw [div_le_one (by norm_num)]; exact ha'
  have a2 : (0 : ℚ) ≤ a / 255 := by positivity
  have d1 : (bg : ℚ) / 255 * fg / 255 ≤ 1 := by rw [div_le_one (by norm_num)]; exact c1
  have d0 : (0 : ℚ) ≤ bg / 255 * fg / 255 := by positivity
  have k5 := err_mul (M := 1 + 4 * eps) (N := 1 + eps) k3 k4 d0 (by rw [p]; linarith) a2 (by linarith) (by rw [p]; norm_num)
  have g1 : (bg : ℚ) / 255 * fg / 255 * (a / 255) ≤ 1 := by nlinarith
  have g0 : (0 : ℚ) ≤ bg / 255 * fg / 255 * (a / 255) := by positivity
  have k6 := err_mul (M := 1 + 6 * eps) (N := 255) k5 (err_ofNat (n := 255) (by decide)) g0 (by rw [p]; linarith) (by norm_num) (by norm_num) (by rw [p]; norm_num)
  have e : ((bg * fg * a : Nat) : ℚ) / 65025 = bg / 255 * fg / 255 * (a / 255) * (255 : Nat) := by push_cast; field_simp; ring
  rw [e]
  refine le_trans k6 ?_
  rw [p]; norm_num

/-! ### Products close to the middle of two numbers -/

/-- The product in `f32` is rounded as it should be. -/
def fine (bg fg a : Nat) : Bool := (mulF bg fg a).roundU8 == UInt8.ofNat ((2 * (bg * fg * a) + 65025) / 130050)

/-- The same in any order. -/
def fines (x y z : Nat) : Bool := fine x y z && fine x z y && fine y x z && fine y z x && fine z x y && fine z y x

/-- `f i` for all `i < n` down to the first one that is not in `c`. -/
def allDown (c f : Nat → Bool) (n : Nat) : Bool := Nat.rec true (fun n ih => cond (c n) (cond (f n) ih false) true) n

theorem allDown_succ (c f : Nat → Bool) (n : Nat) : allDown c f (n + 1) = cond (c n) (cond (f n) (allDown c f n) false) true := rfl

theorem allDown_mem {c f : Nat → Bool} {n : Nat} (h : allDown c f n = true) {i : Nat} (h2 : i < n)
    (hc : ∀ j, i ≤ j → c j = true) : f i = true := by
  induction n with
  | zero => omega
  | succ n ih =>
    simp only [allDown_succ, Bool.cond_eq_ite, hc n (by omega), if_true] at h
    split at h
    · rename_i h0
      rcases Nat.lt_or_eq_of_le (Nat.le_of_lt_succ h2) with h3 | rfl
      · exact ih h h3
      · exact h0
    · cases h

/-- `f n`, where `n` is computed first. -/
def force (f : Nat → Bool) : Nat → Bool
  | 0 => f 0
  | n + 1 => f (n + 1)

theorem force_eq (f : Nat → Bool) (n : Nat) : force f n = f n := by cases n <;> rfl

/-- All `x ≥ y ≥ z` with the product `q` for a given `x`. -/
def pairs (x q : Nat) : Bool :=
  allDown (fun y => Nat.ble q (Nat.mul y y)) (fun y => bif Nat.beq (Nat.mod q y) 0 then fines x y (q / y) else true) (x + 1)

/-- All `255 ≥ x ≥ y ≥ z` with the product `p`. -/
def products (p : Nat) : Bool :=
  allDown (fun x => Nat.ble p (Nat.mul (Nat.mul x x) x)) (fun x => bif Nat.beq (Nat.mod p x) 0 then force (pairs x) (Nat.div p x) else true) 256

theorem products_mem {p x y z : Nat} (h : products p = true) (hp : p = x * y * z) (h0 : 0 < z) (h1 : y ≤ x) (h2 : z ≤ y) (h3 : x ≤ 255) : fines x y z = true := by
  have hx : 0 < x := by omega
  have hy : 0 < y := by omega
  have e1 : p / x = y * z := by rw [hp, Nat.mul_assoc, Nat.mul_div_cancel_left _ hx]
  have e2 : p % x = 0 := by rw [hp, Nat.mul_assoc]; exact Nat.mul_mod_right _ _
  have e3 : y * z / y = z := Nat.mul_div_cancel_left _ hy
  have e4 : y * z % y = 0 := Nat.mul_mod_right _ _
  have b2 : p ≤ x * x * x := by rw [hp]; exact Nat.mul_le_mul (Nat.mul_le_mul_left _ h1) (by omega)
  have last : ∀ b : Bool, (bif Nat.beq 0 0 then b else true) = true → b = true := fun b h => h
  have h := allDown_mem h (i := x) (by omega) (fun j hj => Nat.ble_eq_true_of_le
    (Nat.le_trans b2 (Nat.mul_le_mul (Nat.mul_le_mul hj hj) hj)))
  rw [show Nat.mod p x = 0 from e2] at h
  have h := last _ h
  rw [force_eq, show Nat.div p x = y * z from e1] at h
  have h := allDown_mem h (i := y) (by omega) (fun j hj => Nat.ble_eq_true_of_le (Nat.mul_le_mul hj (Nat.le_trans h2 hj)))
  rw [e3, show Nat.mod (y * z) y = 0 from e4] at h
  exact last (fines x y z) h

/-- All products that are close to the middle. -/
def middles (n : Nat) : Bool := allDown (fun _ => true) (fun k => allDown (fun _ => true) (fun j => force products (65025 * k + j + 32507)) 12) n

theorem middles_all : middles 255 = true := by decide +kernel

theorem middles_mem {k j : Nat} (hk : k < 255) (hj : j < 12) : products (65025 * k + j + 32507) = true := by
  have h := allDown_mem middles_all hk (fun _ _ => rfl)
  have h := allDown_mem h hj (fun _ _ => rfl)
  rwa [force_eq] at h

theorem fines_all {x y z : Nat} (h : fines x y z = true) : fine x y z = true ∧ fine x z y = true ∧ fine y x z = true ∧ fine y z x = true ∧ fine z x y = true ∧ fine z y x = true := by
  unfold fines at h
  simp only [Bool.and_eq_true] at h
  obtain ⟨⟨⟨⟨⟨h1, h2⟩, h3⟩, h4⟩, h5⟩, h6⟩ := h
  exact ⟨h1, h2, h3, h4, h5, h6⟩

theorem fine_of {p x y z : Nat} (h : products p = true) (hp : p = x * y * z) (h0 : 0 < p) (hx : x ≤ 255) (hy : y ≤ 255) (hz : z ≤ 255) : fine x y z = true := by
  have x0 : 0 < x := Nat.pos_of_ne_zero (by rintro rfl; simp at hp; omega)
  have y0 : 0 < y := Nat.pos_of_ne_zero (by rintro rfl; simp at hp; omega)
  have z0 : 0 < z := Nat.pos_of_ne_zero (by rintro rfl; simp at hp; omega)
  rcases Nat.le_total x y with a | a <;> rcases Nat.le_total y z with b | b <;> rcases Nat.le_total x z with c | c
  · exact (fines_all (products_mem h (x := z) (y := y) (z := x) (by rw [hp]; ring) x0 b a hz)).2.2.2.2.2
  · exact (fines_all (products_mem h (x := z) (y := y) (z := x) (by rw [hp]; ring) x0 b a hz)).2.2.2.2.2
  · exact (fines_all (products_mem h (x := y) (y := z) (z := x) (by rw [hp]; ring) x0 b c hy)).2.2.2.2.1
  · exact (fines_all (products_mem h (x := y) (y := x) (z := z) (by rw [hp]; ring) z0 a c hy)).2.2.1
  · exact (fines_all (products_mem h (x := z) (y := x) (z := y) (by rw [hp]; ring) y0 c a hz)).2.2.2.1
  · exact (fines_all (products_mem h (x := x) (y := z) (z := y) (by rw [hp]; ring) y0 c b hx)).2.1
  · exact (fines_all (products_mem h (x := x) (y := y) (z := z) (by rw [hp]) z0 a b hx)).1
  · exact (fines_all (products_mem h (x := x) (y := y) (z := z) (by rw [hp]) z0 a b hx)).1

/-- Multiplying in `f32` rounds the exact value. -/
theorem mul_exact {bg fg a : Nat} (hb : bg ≤ 255) (hf : fg ≤ 255) (ha : a ≤ 255) :
    (mulF bg fg a).roundU8 = UInt8.ofNat ((2 * (bg * fg * a) + 65025) / 130050) := by
  have hle : bg * fg * a ≤ 255 * 255 * 255 := Nat.mul_le_mul (Nat.mul_le_mul hb hf) ha
  by_cases hm : ∃ k j, k < 255 ∧ j < 12 ∧ bg * fg * a = 65025 * k + j + 32507
  · obtain ⟨k, j, hk, hj, e⟩ := hm
    have h := fine_of (middles_mem hk hj) e.symm (by omega) hb hf ha
    exact eq_of_beq h
  · have h := mul_err hb hf ha
    generalize bg * fg * a = v at h hle hm ⊢
    have hk : (2 * v + 65025) / 130050 ≤ 255 := by omega
    have hfar : (2 * v + 65025) / 130050 * 130050 + 12 ≤ 2 * v + 65025 ∧ 2 * v + 65025 + 12 < ((2 * v + 65025) / 130050 + 1) * 130050 := by
      refine ⟨?_, ?_⟩
      · refine Nat.le_of_not_lt fun hc => hm ⟨(2 * v + 65025) / 130050 - 1, v - (65025 * ((2 * v + 65025) / 130050 - 1) + 32507), ?_, ?_, ?_⟩ <;> omega
      · refine Nat.lt_of_not_le fun hc => hm ⟨(2 * v + 65025) / 130050, v - (65025 * ((2 * v + 65025) / 130050) + 32507), ?_, ?_, ?_⟩ <;> omega
    obtain ⟨h1, h2⟩ := hfar
    refine roundU8_of h hk ?_ ?_
    · generalize (2 * v + 65025) / 130050 = k at h1
      have : ((k : ℚ) * 130050 + 12) ≤ 2 * v + 65025 := by exact_mod_cast h1
      linarith
    · generalize (2 * v + 65025) / 130050 = k at h2
      have : (2 * (v : ℚ) + 65025 + 12) < (k + 1) * 130050 := by exact_mod_cast h2
      linarith

end F32

/-- The f32 arithmetic of blending rounds the exact mixture to the nearest whole number. -/
theorem blendChan_eq (fg bg a : Byte) : blendChan fg bg a = UInt8.ofNat ((2 * (fg.toNat * a.toNat + bg.toNat * (255 - a.toNat)) + 255) / 510) :=
  by unfold blendChan; exact F32.blend_exact (by have := fg.toNat_lt; omega) (by have := bg.toNat_lt; omega) (by have := a.toNat_lt; omega)

/-- The f32 arithmetic of multiplying rounds the exact product to the nearest whole number. -/
theorem mulChan_eq (bg fg a : Byte) : mulChan bg fg a = UInt8.ofNat ((2 * (bg.toNat * fg.toNat * a.toNat) + 65025) / 130050) :=
  by unfold mulChan; exact F32.mul_exact (by have := bg.toNat_lt; omega) (by have := fg.toNat_lt; omega) (by have := a.toNat_lt; omega)

end Thermal
