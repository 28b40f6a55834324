import Verif.Model.Graphics
import Verif.Proofs.Loop
import Verif.Proofs.SubLookup
import Verif.Spec.Grid
/-
Bit unpacking.
-/
namespace Thermal
open Spec

theorem bitVal_eq (b : Byte) (k : Nat) (hk : k < 8) : bitVal b k = dot (b.toNat.testBit k) := by
  have h : ∀ k < 8, ∀ n < 256, bitVal (UInt8.ofNat n) k = dot ((UInt8.ofNat n).toNat.testBit k) := by decide +kernel
  exact byte_all (P := fun b => bitVal b k = dot (b.toNat.testBit k)) (h k hk) b

/-- pixels of the last byte of a row -/
def padOf (w : Nat) : Nat := if w % 8 = 0 then 8 else w % 8

theorem padOf_bounds {w : Nat} (hw : 0 < w) : w = 8 * (rowBytes w - 1) + padOf w ∧ 0 < padOf w ∧ padOf w ≤ 8 ∧ 0 < rowBytes w := by
  unfold rowBytes padOf; split <;> omega

theorem unpackLoop_length {w : Nat} (hw : 0 < w) (l : List Byte) (j : Nat) (hj : j < rowBytes w) :
    (unpackLoop w (padOf w) l (8 * j)).length + 8 * j =
      (l.length + j) / rowBytes w * w + (l.length + j) % rowBytes w * 8 := by
  obtain ⟨h1, h2, h3, h4⟩ := padOf_bounds hw
  induction l generalizing j with
  | nil => simp [unpackLoop, Nat.div_eq_of_lt hj, Nat.mod_eq_of_lt hj]; omega
  | cons b l ih =>
    rw [unpackLoop]
    split
    · have hjr : j + 1 = rowBytes w := by omega
      have := ih 0 h4
      rw [Nat.mul_zero, Nat.add_zero, Nat.add_zero] at this
      have e : (b :: l).length + j = l.length + rowBytes w := by simp; omega
      rw [e, Nat.add_div_right _ h4, Nat.add_mod_right, List.length_append, this]
      have e3 : (l.length / rowBytes w + 1) * w = l.length / rowBytes w * w + w := by rw [Nat.add_mul, Nat.one_mul]
      simp only [e3, List.length_map, List.length_range]
      omega
    · have hjr : j + 1 < rowBytes w := by omega
      have := ih (j + 1) hjr
      have e : (b :: l).length + j = l.length + (j + 1) := by simp; omega
      rw [e, ← this, List.length_append]
      simp
      rw [show 8 * (j + 1) = 8 * j + 8 by omega]
      omega

theorem unpackLoop_get {w : Nat} (hw : 0 < w) (l : List Byte) (j : Nat) (hj : j < rowBytes w) (x y : Nat) (hx : x < w)
    (hge : y = 0 → j ≤ x / 8) (hlt : y * rowBytes w + x / 8 < l.length + j) :
    (unpackLoop w (padOf w) l (8 * j))[y * w + x - 8 * j]? =
      some (dot ((l.getD (y * rowBytes w + x / 8 - j) 0).toNat.testBit (7 - x % 8))) := by
  obtain ⟨h1, h2, h3, h4⟩ := padOf_bounds hw
  induction l generalizing j y with
  | nil =>
    exfalso
    simp at hlt
    cases y with
    | zero => have := hge rfl; omega
    | succ y => rw [Nat.add_mul] at hlt; omega
  | cons b l ih =>
    rw [unpackLoop]
    split
    · have hjr : j + 1 = rowBytes w := by omega
      cases y with
      | zero =>
        have hx8 := hge rfl
        have hx8' : x / 8 = j := by omega
        rw [List.getElem?_append_left (by simp; omega)]
        simp only [Nat.zero_mul, Nat.zero_add, hx8', Nat.sub_self, List.getD_cons_zero]
        rw [List.getElem?_map, List.getElem?_range (by omega)]
        simp only [Option.map_some]
        rw [bitVal_eq _ _ (by omega)]
        congr 4
        omega
      | succ y =>
        have e1 : (y + 1) * w = y * w + w := by rw [Nat.add_mul, Nat.one_mul]
        have e2 : (y + 1) * rowBytes w = y * rowBytes w + rowBytes w := by rw [Nat.add_mul, Nat.one_mul]
        have := ih 0 h4 y (fun _ => Nat.zero_le _) (by rw [e2] at hlt; simp only [List.length_cons] at hlt; omega)
        rw [List.getElem?_append_right (by simp; omega)]
        simp only [List.length_map, List.length_range]
        rw [show (y + 1) * w + x - 8 * j - padOf w = y * w + x - 8 * 0 by omega]
        rw [show (y + 1) * rowBytes w + x / 8 - j = (y * rowBytes w + x / 8 - 0) + 1 by omega, List.getD_cons_succ]
        exact this
    · have hjr : j + 1 < rowBytes w := by omega
      by_cases hc : y = 0 ∧ x / 8 = j
      · obtain ⟨rfl, hx8'⟩ := hc
        rw [List.getElem?_append_left (by simp; omega)]
        simp only [Nat.zero_mul, Nat.zero_add, hx8', Nat.sub_self, List.getD_cons_zero]
        rw [List.getElem?_map, List.getElem?_range (by omega)]
        simp only [Option.map_some]
        rw [bitVal_eq _ _ (by omega)]
        congr 4
        omega
      · have hyy : 0 < y → w ≤ y * w := fun h => Nat.le_mul_of_pos_left w h
        have hyr : 0 < y → rowBytes w ≤ y * rowBytes w := fun h => Nat.le_mul_of_pos_left _ h
        have hbig : 8 * (j + 1) ≤ y * w + x ∧ j + 1 ≤ y * rowBytes w + x / 8 := by
          rcases Nat.eq_zero_or_pos y with h0 | h0
          · subst h0; have := hge rfl; simp only [true_and] at hc; omega
          · have := hyy h0; have := hyr h0; omega
        have := ih (j + 1) hjr y (fun h0 => by subst h0; have := hge rfl; simp only [true_and] at hc; omega)
          (by simp only [List.length_cons] at hlt; omega)
        rw [List.getElem?_append_right (by simp; omega)]
        simp only [List.length_map, List.length_range]
        rw [show y * w + x - 8 * j - 8 = y * w + x - 8 * (j + 1) by omega]
        rw [show y * rowBytes w + x / 8 - j = (y * rowBytes w + x / 8 - (j + 1)) + 1 by omega, List.getD_cons_succ]
        exact this

theorem unpackLoop_length0 (l : List Byte) (j : Nat) : (unpackLoop 0 8 l j).length = 8 * l.length := by
  induction l generalizing j with
  | nil => rfl
  | cons b l ih => rw [unpackLoop, if_pos (by omega)]; simp [ih]; omega

/-- The unpacked data has the size of the picture exactly when the packed data has. -/
theorem unpack_length_iff (data : List Byte) (w h : Nat) :
    (unpackBytes data w h).length = w * h ↔ data.length = rowBytes w * h := by
  rcases Nat.eq_zero_or_pos w with h0 | hw
  · subst h0
    show (unpackLoop 0 8 data 0).length = _ ↔ _
    rw [unpackLoop_length0]
    simp only [rowBytes, Nat.zero_mul, Nat.zero_add, Nat.reduceDiv]; omega
  · obtain ⟨h1, h2, h3, h4⟩ := padOf_bounds hw
    have := unpackLoop_length hw data 0 h4
    rw [Nat.mul_zero, Nat.add_zero, Nat.add_zero] at this
    show (unpackLoop w (padOf w) data 0).length = _ ↔ _
    rw [this]
    have hr := Nat.mod_lt data.length h4
    have hd := Nat.div_add_mod data.length (rowBytes w)
    constructor
    · intro e
      have e' : data.length / rowBytes w * w + data.length % rowBytes w * 8 = h * w + 0 := by rw [e, Nat.mul_comm]; rfl
      obtain ⟨ha, hb⟩ := rm_inj (by omega) hw e'
      have hb' : data.length % rowBytes w = 0 := by omega
      rw [← hd, ha, hb']; rfl
    · intro e
      rw [e, Nat.mul_div_cancel_left _ h4, Nat.mul_mod_right, Nat.mul_comm]; rfl

theorem unpack_shows (data : List Byte) (w h : Nat) (hl : data.length = rowBytes w * h) :
    Shows (unpackBytes data w h) w h (fun x y => dot (rasterBit data w x y)) := by
  refine ⟨(unpack_length_iff data w h).2 hl, fun x y hx hy => ?_⟩
  have hw : 0 < w := by omega
  obtain ⟨h1, h2, h3, h4⟩ := padOf_bounds hw
  have hxr : x / 8 < rowBytes w := by unfold rowBytes; omega
  have := unpackLoop_get hw data 0 h4 x y hx (fun _ => Nat.zero_le _) (by rw [hl]; exact rm_lt hxr hy)
  exact this

end Thermal
