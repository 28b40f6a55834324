import Verif.Spec.Utf8
import Verif.Model.Apply
import Verif.Proofs.Utf8
import Verif.Props.Decoder
/-
C97: damaged UTF-8 text.
-/
namespace Thermal
open Spec

theorem cont_iff {b : Byte} : isCont b = true ↔ 0x80 ≤ b.toNat ∧ b.toNat ≤ 0xBF := by
  unfold isCont
  simp only [Bool.and_eq_true, decide_eq_true_eq, UInt8.le_iff_toNat_le]
  rfl

theorem eq_ofNat {b : Byte} {n : Nat} (h : b.toNat = n) : UInt8.ofNat n = b := by subst h; simp

theorem encode_ofNat {v : Nat} (hv : v < 0xD800 ∨ (0xDFFF < v ∧ v < 0x110000)) : (Char.ofNat v).val.toNat = v := by
  unfold Char.ofNat
  rw [dif_pos hv]
  simp [Char.ofNatAux]

/-- What is decoded is what the bytes encode. -/
theorem decode_sound {bs rest : List Byte} {c : Char} (h : utf8DecodeFirst bs = some (c, rest)) : bs = String.utf8EncodeChar c ++ rest := by
  unfold utf8DecodeFirst at h
  split at h
  · cases h
  · rename_i b0 r0
    dsimp only at h
    have h0 := b0.toNat_lt
    split at h
    · rename_i h1
      simp only [Option.some.injEq, Prod.mk.injEq] at h
      obtain ⟨rfl, rfl⟩ := h
      unfold String.utf8EncodeChar
      rw [encode_ofNat (by omega)]
      simp only []
      rw [if_pos (by omega), eq_ofNat rfl]; rfl
    · split at h
      · split at h
        · rename_i b1 r1
          split at h
          · rename_i h1
            rw [cont_iff] at h1
            simp only [Option.some.injEq, Prod.mk.injEq] at h
            obtain ⟨rfl, rfl⟩ := h
            unfold String.utf8EncodeChar
            rw [encode_ofNat (by omega)]
            simp only []
            rw [if_neg (by omega), if_pos (by omega), eq_ofNat (b := b0) (by omega), eq_ofNat (b := b1) (by omega)]; rfl
          · cases h
        · cases h
      · split at h
        · split at h
          · rename_i b1 b2 r1
            split at h
            · rename_i h1
              simp only [Bool.and_eq_true, cont_iff, decide_eq_true_eq, Bool.not_eq_true', Bool.and_eq_false_iff, decide_eq_false_iff_not] at h1
              simp only [Option.some.injEq, Prod.mk.injEq] at h
              obtain ⟨rfl, rfl⟩ := h
              unfold String.utf8EncodeChar
              rw [encode_ofNat (by omega)]
              simp only []
              rw [if_neg (by omega), if_neg (by omega), if_pos (by omega), eq_ofNat (b := b0) (by omega), eq_ofNat (b := b1) (by omega),
                eq_ofNat (b := b2) (by omega)]; rfl
            · cases h
          · cases h
        · split at h
          · split at h
            · rename_i b1 b2 b3 r1
              split at h
              · rename_i h1
                simp only [Bool.and_eq_true, cont_iff, decide_eq_true_eq] at h1
                simp only [Option.some.injEq, Prod.mk.injEq] at h
                obtain ⟨rfl, rfl⟩ := h
                unfold String.utf8EncodeChar
                rw [encode_ofNat (by omega)]
                simp only []
                rw [if_neg (by omega), if_neg (by omega), if_neg (by omega), eq_ofNat (b := b0) (by omega), eq_ofNat (b := b1) (by omega),
                  eq_ofNat (b := b2) (by omega), eq_ofNat (b := b3) (by omega)]; rfl
              · cases h
            · cases h
          · cases h

/-- The second byte of a character of more than two bytes. -/
def secondOk (a b : Nat) : Prop :=
  if a = 0xE0 then 0xA0 ≤ b ∧ b ≤ 0xBF else if a = 0xED then 0x80 ≤ b ∧ b ≤ 0x9F else if a = 0xF0 then 0x90 ≤ b ∧ b ≤ 0xBF
  else if a = 0xF4 then 0x80 ≤ b ∧ b ≤ 0x8F else 0x80 ≤ b ∧ b ≤ 0xBF

instance (a b : Nat) : Decidable (secondOk a b) := by unfold secondOk; infer_instance

/-- The beginnings of characters. -/
def beginning : List Nat → Prop
  | [a] => 0xC2 ≤ a ∧ a ≤ 0xF4
  | [a, b] => 0xE0 ≤ a ∧ a ≤ 0xF4 ∧ secondOk a b
  | [a, b, c] => 0xF0 ≤ a ∧ a ≤ 0xF4 ∧ secondOk a b ∧ 0x80 ≤ c ∧ c ≤ 0xBF
  | _ => False

/-- The bytes of a character. -/
theorem decode_shape {bs : List Byte} {c : Char} (h : utf8DecodeFirst bs = some (c, [])) :
    (∃ a, bs = [a]) ∨ (∃ a b, bs = [a, b] ∧ 0xC2 ≤ a.toNat ∧ a.toNat ≤ 0xDF) ∨
    (∃ a b d, bs = [a, b, d] ∧ 0xE0 ≤ a.toNat ∧ a.toNat ≤ 0xEF ∧ secondOk a.toNat b.toNat) ∨
    (∃ a b d e, bs = [a, b, d, e] ∧ 0xF0 ≤ a.toNat ∧ a.toNat ≤ 0xF4 ∧ secondOk a.toNat b.toNat ∧ 0x80 ≤ d.toNat ∧ d.toNat ≤ 0xBF) := by
  unfold utf8DecodeFirst at h
  split at h
  · cases h
  · rename_i b0 r0
    dsimp only at h
    have h0 := b0.toNat_lt
    split at h
    · simp only [Option.some.injEq, Prod.mk.injEq] at h
      obtain ⟨_, rfl⟩ := h
      exact .inl ⟨_, rfl⟩
    · split at h
      · split at h
        · split at h
          · simp only [Option.some.injEq, Prod.mk.injEq] at h
            obtain ⟨_, rfl⟩ := h
            exact .inr (.inl ⟨_, _, rfl, by omega, by omega⟩)
          · cases h
        · cases h
      · split at h
        · split at h
          · split at h
            · rename_i h1
              simp only [Bool.and_eq_true, cont_iff, decide_eq_true_eq, Bool.not_eq_true', Bool.and_eq_false_iff, decide_eq_false_iff_not] at h1
              simp only [Option.some.injEq, Prod.mk.injEq] at h
              obtain ⟨_, rfl⟩ := h
              refine .inr (.inr (.inl ⟨_, _, _, rfl, by omega, by omega, ?_⟩))
              unfold secondOk
              repeat' split
              all_goals omega
            · cases h
          · cases h
        · split at h
          · split at h
            · split at h
              · rename_i h1
                simp only [Bool.and_eq_true, cont_iff, decide_eq_true_eq] at h1
                simp only [Option.some.injEq, Prod.mk.injEq] at h
                obtain ⟨_, rfl⟩ := h
                refine .inr (.inr (.inr ⟨_, _, _, _, rfl, by omega, by omega, ?_, by omega, by omega⟩))
                unfold secondOk
                repeat' split
                all_goals omega
              · cases h
            · cases h
          · cases h

theorem beginning_of {p : List Byte} (h : isBeginning p) : beginning (p.map (·.toNat)) := by
  obtain ⟨hne, c, ⟨q, e⟩, hn⟩ := h
  have hq : q ≠ [] := by rintro rfl; exact hn (by simpa using e)
  have hd := decode_encode c []
  rw [List.append_nil, ← e] at hd
  rcases decode_shape hd with ⟨a, e⟩ | ⟨a, b, e, h1, h2⟩ | ⟨a, b, d, e, h1, h2, h3⟩ | ⟨a, b, d, x, e, h1, h2, h3, h4, h5⟩
  · rcases p with _ | ⟨p0, p⟩
    · exact absurd rfl hne
    · simp at e; exact absurd e.2.2 hq
  · rcases p with _ | ⟨p0, _ | ⟨p1, p⟩⟩
    · exact absurd rfl hne
    · simp at e; obtain ⟨rfl, _⟩ := e; show _ ∧ _; dsimp only; exact ⟨h1, by omega⟩
    · simp at e; exact absurd e.2.2.2 hq
  · rcases p with _ | ⟨p0, _ | ⟨p1, _ | ⟨p2, p⟩⟩⟩
    · exact absurd rfl hne
    · simp at e; obtain ⟨rfl, _⟩ := e; show _ ∧ _; dsimp only; exact ⟨by omega, by omega⟩
    · simp at e; obtain ⟨rfl, rfl, _⟩ := e; show _ ∧ _; dsimp only; exact ⟨h1, by omega, h3⟩
    · simp at e; exact absurd e.2.2.2.2 hq
  · rcases p with _ | ⟨p0, _ | ⟨p1, _ | ⟨p2, _ | ⟨p3, p⟩⟩⟩⟩
    · exact absurd rfl hne
    · simp at e; obtain ⟨rfl, _⟩ := e; show _ ∧ _; dsimp only; exact ⟨by omega, by omega⟩
    · simp at e; obtain ⟨rfl, rfl, _⟩ := e; show _ ∧ _; dsimp only; exact ⟨by omega, by omega, h3⟩
    · simp at e; obtain ⟨rfl, rfl, rfl, _⟩ := e; show _ ∧ _; dsimp only; exact ⟨h1, by omega, h3, h4, h5⟩
    · simp at e; exact absurd e.2.2.2.2.2 hq

theorem decode_two {a b : Byte} (h1 : 0xC2 ≤ a.toNat) (h2 : a.toNat ≤ 0xDF) (h3 : 0x80 ≤ b.toNat) (h4 : b.toNat ≤ 0xBF) :
    ∃ c, utf8DecodeFirst [a, b] = some (c, []) := by
  unfold utf8DecodeFirst
  dsimp only
  rw [if_neg (by omega), if_pos ⟨h1, h2⟩, if_pos (cont_iff.2 ⟨h3, h4⟩)]
  exact ⟨_, rfl⟩

theorem decode_three {a b d : Byte} (h1 : 0xE0 ≤ a.toNat) (h2 : a.toNat ≤ 0xEF) (h3 : secondOk a.toNat b.toNat) (h4 : 0x80 ≤ d.toNat) (h5 : d.toNat ≤ 0xBF) :
    ∃ c, utf8DecodeFirst [a, b, d] = some (c, []) := by
  have hb : 0x80 ≤ b.toNat ∧ b.toNat ≤ 0xBF ∧ (a.toNat = 0xE0 → 0xA0 ≤ b.toNat) ∧ (a.toNat = 0xED → b.toNat ≤ 0x9F) := by
    unfold secondOk at h3
    revert h3
    repeat' split
    all_goals omega
  unfold utf8DecodeFirst
  dsimp only
  rw [if_neg (by omega), if_neg (by omega), if_pos ⟨h1, h2⟩, if_pos]
  · exact ⟨_, rfl⟩
  · simp only [Bool.and_eq_true, cont_iff, decide_eq_true_eq, Bool.not_eq_true', Bool.and_eq_false_iff, decide_eq_false_iff_not]
    omega

theorem decode_four {a b d e : Byte} (h1 : 0xF0 ≤ a.toNat) (h2 : a.toNat ≤ 0xF4) (h3 : secondOk a.toNat b.toNat) (h4 : 0x80 ≤ d.toNat) (h5 : d.toNat ≤ 0xBF)
    (h6 : 0x80 ≤ e.toNat) (h7 : e.toNat ≤ 0xBF) : ∃ c, utf8DecodeFirst [a, b, d, e] = some (c, []) := by
  have hb : 0x80 ≤ b.toNat ∧ b.toNat ≤ 0xBF ∧ (a.toNat = 0xF0 → 0x90 ≤ b.toNat) ∧ (a.toNat = 0xF4 → b.toNat ≤ 0x8F) := by
    unfold secondOk at h3
    revert h3
    repeat' split
    all_goals omega
  unfold utf8DecodeFirst
  dsimp only
  rw [if_neg (by omega), if_neg (by omega), if_neg (by omega), if_pos ⟨h1, h2⟩, if_pos]
  · exact ⟨_, rfl⟩
  · simp only [Bool.and_eq_true, cont_iff, decide_eq_true_eq]
    omega

theorem isBeginning_of {p q : List Byte} (hp : p ≠ []) (hq : q ≠ []) (h : ∃ c, utf8DecodeFirst (p ++ q) = some (c, [])) : isBeginning p := by
  obtain ⟨c, h⟩ := h
  have := decode_sound h
  rw [List.append_nil] at this
  refine ⟨hp, c, ⟨q, this⟩, fun e => hq ?_⟩
  rw [← this] at e
  simpa using e

theorem beginning_iff {p : List Byte} : isBeginning p ↔ beginning (p.map (·.toNat)) := by
  refine ⟨beginning_of, fun h => ?_⟩
  rcases p with _ | ⟨a, _ | ⟨b, _ | ⟨d, _ | ⟨e, p⟩⟩⟩⟩
  · exact absurd h id
  · obtain ⟨h1, h2⟩ : 0xC2 ≤ a.toNat ∧ a.toNat ≤ 0xF4 := h
    by_cases h3 : a.toNat ≤ 0xDF
    · exact isBeginning_of (q := [0x80]) (by simp) (by simp) (decode_two h1 h3 (by decide) (by decide))
    · by_cases h4 : a.toNat ≤ 0xEF
      · by_cases h5 : a.toNat = 0xE0
        · exact isBeginning_of (q := [0xA0, 0x80]) (by simp) (by simp) (decode_three (by omega) h4 (by rw [h5]; decide) (by decide) (by decide))
        · refine isBeginning_of (q := [0x80, 0x80]) (by simp) (by simp) (decode_three (by omega) h4 ?_ (by decide) (by decide))
          have : (0x80 : Byte).toNat = 0x80 := rfl
          rw [this]; unfold secondOk; repeat' split
          all_goals omega
      · by_cases h5 : a.toNat = 0xF0
        · exact isBeginning_of (q := [0x90, 0x80, 0x80]) (by simp) (by simp)
            (decode_four (by omega) h2 (by rw [h5]; decide) (by decide) (by decide) (by decide) (by decide))
        · refine isBeginning_of (q := [0x80, 0x80, 0x80]) (by simp) (by simp) (decode_four (by omega) h2 ?_ (by decide) (by decide) (by decide) (by decide))
          have : (0x80 : Byte).toNat = 0x80 := rfl
          rw [this]; unfold secondOk; repeat' split
          all_goals omega
  · obtain ⟨h1, h2, h3⟩ : 0xE0 ≤ a.toNat ∧ a.toNat ≤ 0xF4 ∧ secondOk a.toNat b.toNat := h
    by_cases h4 : a.toNat ≤ 0xEF
    · exact isBeginning_of (q := [0x80]) (by simp) (by simp) (decode_three h1 h4 h3 (by decide) (by decide))
    · exact isBeginning_of (q := [0x80, 0x80]) (by simp) (by simp) (decode_four (by omega) h2 h3 (by decide) (by decide) (by decide) (by decide))
  · obtain ⟨h1, h2, h3, h4, h5⟩ : 0xF0 ≤ a.toNat ∧ a.toNat ≤ 0xF4 ∧ secondOk a.toNat b.toNat ∧ 0x80 ≤ d.toNat ∧ d.toNat ≤ 0xBF := h
    exact isBeginning_of (q := [0x80]) (by simp) (by simp) (decode_four h1 h2 h3 h4 h5 (by decide) (by decide))
  · exact absurd h id

theorem u8_eq {a b : Byte} : a = b ↔ a.toNat = b.toNat := UInt8.toNat_inj.symm

/-- How many bytes are left out. -/
theorem badLen_eq (a b : Byte) (rest : List Byte) : utf8BadLen (a :: b :: rest) =
    if 0xE0 ≤ a.toNat ∧ a.toNat ≤ 0xF4 ∧ secondOk a.toNat b.toNat then
      if 0xF0 ≤ a.toNat then (match rest with | d :: _ => if 0x80 ≤ d.toNat ∧ d.toNat ≤ 0xBF then 3 else 2 | [] => 2) else 2
    else 1 := by
  have key : (if a = 0xE0 then 0xA0 ≤ b && b ≤ 0xBF else if a = 0xED then 0x80 ≤ b && b ≤ 0x9F
      else if 0xE1 ≤ a ∧ a ≤ 0xEF then isCont b
      else if a = 0xF0 then 0x90 ≤ b && b ≤ 0xBF else if a = 0xF4 then 0x80 ≤ b && b ≤ 0x8F
      else if 0xF1 ≤ a ∧ a ≤ 0xF3 then isCont b else false : Bool) =
      decide (0xE0 ≤ a.toNat ∧ a.toNat ≤ 0xF4 ∧ secondOk a.toNat b.toNat) := by
    rw [Bool.eq_iff_iff, decide_eq_true_eq]
    unfold secondOk
    simp only [u8_eq, UInt8.le_iff_toNat_le, show (0xE0 : Byte).toNat = 0xE0 from rfl, show (0xED : Byte).toNat = 0xED from rfl,
      show (0xF0 : Byte).toNat = 0xF0 from rfl, show (0xF4 : Byte).toNat = 0xF4 from rfl, show (0xE1 : Byte).toNat = 0xE1 from rfl,
      show (0xEF : Byte).toNat = 0xEF from rfl, show (0xF1 : Byte).toNat = 0xF1 from rfl, show (0xF3 : Byte).toNat = 0xF3 from rfl,
      show (0xA0 : Byte).toNat = 0xA0 from rfl, show (0xBF : Byte).toNat = 0xBF from rfl, show (0x80 : Byte).toNat = 0x80 from rfl,
      show (0x9F : Byte).toNat = 0x9F from rfl, show (0x90 : Byte).toNat = 0x90 from rfl, show (0x8F : Byte).toNat = 0x8F from rfl]
    repeat' split
    all_goals (try simp only [Bool.and_eq_true, decide_eq_true_eq, cont_iff, Bool.false_eq_true, false_iff])
    all_goals omega
  unfold utf8BadLen
  dsimp only
  rw [key]
  by_cases h : 0xE0 ≤ a.toNat ∧ a.toNat ≤ 0xF4 ∧ secondOk a.toNat b.toNat
  · rw [decide_eq_true h, if_pos h]
    simp only [Bool.not_true, Bool.false_eq_true, if_false]
    have e : (a ≥ 0xF0) ↔ 0xF0 ≤ a.toNat := UInt8.le_iff_toNat_le
    simp only [e]
    split
    · cases rest with
      | nil => rfl
      | cons d ds => simp only [cont_iff]
    · rfl
  · rw [decide_eq_false h, if_neg h]
    rfl

theorem beginning_short {p : List Nat} (h : beginning p) : p.length ≤ 3 := by
  unfold beginning at h
  split at h
  all_goals first
    | (simp; done)
    | exact absurd h id

theorem three_bytes {q : List Byte} (h : q.length = 3) : ∃ x y z, q = [x, y, z] := by
  rcases q with _ | ⟨x, _ | ⟨y, _ | ⟨z, _ | ⟨w, q⟩⟩⟩⟩
  case cons.cons.cons.nil => exact ⟨x, y, z, rfl⟩
  all_goals simp at h

/-- What is left out is one byte, or the longest beginning of a character. -/
theorem badLen_ok {bs : List Byte} (hne : bs ≠ []) :
    1 ≤ utf8BadLen bs ∧ utf8BadLen bs ≤ bs.length ∧ (utf8BadLen bs = 1 ∨ isBeginning (bs.take (utf8BadLen bs))) ∧
    ∀ q, q <+: bs → isBeginning q → q.length ≤ utf8BadLen bs := by
  rcases bs with _ | ⟨a, _ | ⟨b, rest⟩⟩
  · exact absurd rfl hne
  · refine ⟨Nat.le_refl _, Nat.le_refl _, .inl rfl, fun q hq _ => ?_⟩
    exact hq.length_le
  · rw [badLen_eq]
    by_cases h : 0xE0 ≤ a.toNat ∧ a.toNat ≤ 0xF4 ∧ secondOk a.toNat b.toNat
    · rw [if_pos h]
      have two : isBeginning [a, b] := beginning_iff.2 h
      by_cases hf : 0xF0 ≤ a.toNat
      · rw [if_pos hf]
        cases rest with
        | nil =>
          dsimp only
          refine ⟨by omega, by simp, .inr two, fun q hq _ => by simpa using hq.length_le⟩
        | cons d ds =>
          dsimp only
          by_cases hd : 0x80 ≤ d.toNat ∧ d.toNat ≤ 0xBF
          · rw [if_pos hd]
            refine ⟨by omega, by simp, .inr (beginning_iff.2 (show _ ∧ _ from ⟨hf, h.2.1, h.2.2, hd.1, hd.2⟩)), fun q hq hb => ?_⟩
            have := beginning_short (beginning_iff.1 hb)
            simpa using this
          · rw [if_neg hd]
            refine ⟨by omega, by simp, .inr two, fun q hq hb => ?_⟩
            have hs := beginning_short (beginning_iff.1 hb)
            have hb := beginning_iff.1 hb
            rw [List.length_map] at hs
            refine Nat.le_of_not_lt fun hl => ?_
            obtain ⟨x, y, z, rfl⟩ := three_bytes (show q.length = 3 by omega)
            obtain ⟨t, e⟩ := hq
            simp only [List.cons_append, List.nil_append, List.cons.injEq] at e
            obtain ⟨rfl, rfl, rfl, _⟩ := e
            exact hd hb.2.2.2
      · rw [if_neg hf]
        refine ⟨by omega, by simp, .inr two, fun q hq hb => ?_⟩
        have hs := beginning_short (beginning_iff.1 hb)
        have hb := beginning_iff.1 hb
        rw [List.length_map] at hs
        refine Nat.le_of_not_lt fun hl => ?_
        obtain ⟨x, y, z, rfl⟩ := three_bytes (show q.length = 3 by omega)
        obtain ⟨t, e⟩ := hq
        simp only [List.cons_append, List.nil_append, List.cons.injEq] at e
        obtain ⟨rfl, rfl, _⟩ := e
        exact hf hb.1
    · rw [if_neg h]
      refine ⟨Nat.le_refl _, by simp, .inl rfl, fun q hq hb => ?_⟩
      have hs := beginning_short (beginning_iff.1 hb)
      have hb := beginning_iff.1 hb
      rw [List.length_map] at hs
      obtain ⟨t, e⟩ := hq
      rcases q with _ | ⟨x, _ | ⟨y, _ | ⟨z, _ | ⟨w, q⟩⟩⟩⟩
      · simp
      · simp
      · simp only [List.cons_append, List.nil_append, List.cons.injEq] at e
        obtain ⟨rfl, rfl, _⟩ := e
        exact absurd hb h
      · simp only [List.cons_append, List.nil_append, List.cons.injEq] at e
        obtain ⟨rfl, rfl, _⟩ := e
        obtain ⟨h1, h2, h3, _⟩ := hb
        exact absurd ⟨by dsimp only at h1; omega, h2, h3⟩ h
      · simp at hs

theorem lossyAux_reads (n : Nat) (bs : List Byte) (h : bs.length ≤ n) : Reads bs (fromUtf8LossyAux n bs) := by
  induction n generalizing bs with
  | zero =>
    have : bs = [] := List.length_eq_zero_iff.1 (by omega)
    subst this
    exact .done
  | succ n ih =>
    rcases hb : bs with _ | ⟨b, bs'⟩
    · exact .done
    · rw [← hb]
      have hne : bs ≠ [] := by rw [hb]; simp
      have e : fromUtf8LossyAux (n + 1) bs = match utf8DecodeFirst bs with
          | some (c, rest) => c :: fromUtf8LossyAux n rest
          | none => '\uFFFD' :: fromUtf8LossyAux n (bs.drop (utf8BadLen bs)) := by
        subst hb; rfl
      rw [e]
      cases hd : utf8DecodeFirst bs with
      | some x =>
        obtain ⟨c, rest⟩ := x
        have hs := decode_sound hd
        have hl := List.length_pos_iff.2 (encode_ne_nil c)
        rw [hs]
        exact .char c (ih rest (by rw [hs, List.length_append] at h; omega))
      | none =>
        obtain ⟨h1, h2, h3, h4⟩ := badLen_ok hne
        have hsplit := List.take_append_drop (utf8BadLen bs) bs
        have := Reads.damaged (bs.take (utf8BadLen bs)) (rest := bs.drop (utf8BadLen bs)) (text := fromUtf8LossyAux n (bs.drop (utf8BadLen bs)))
          (by
            rw [hsplit]
            rintro c ⟨t, e⟩
            rw [← e, decode_encode] at hd
            cases hd)
          (by
            rcases h3 with h3 | h3
            · left; rw [List.length_take]; omega
            · exact .inr h3)
          (by
            rw [hsplit, List.length_take]
            intro q hq hb
            rw [Nat.min_eq_left h2]
            exact h4 q hq hb)
          (ih _ (by rw [List.length_drop]; omega))
        rw [hsplit] at this
        exact this

theorem reads_cases {bs : List Byte} {t : Str} (h : Reads bs t) : (bs = [] ∧ t = []) ∨
    (∃ c rest text, bs = String.utf8EncodeChar c ++ rest ∧ t = c :: text ∧ Reads rest text) ∨
    ∃ p rest text, bs = p ++ rest ∧ t = '\uFFFD' :: text ∧ (∀ c : Char, ¬ String.utf8EncodeChar c <+: bs) ∧ (p.length = 1 ∨ isBeginning p) ∧
      (∀ q, q <+: bs → isBeginning q → q.length ≤ p.length) ∧ Reads rest text := by
  cases h with
  | done => exact .inl ⟨rfl, rfl⟩
  | char c h => exact .inr (.inl ⟨c, _, _, rfl, rfl, h⟩)
  | damaged p h1 h2 h3 h => exact .inr (.inr ⟨p, _, _, rfl, rfl, h1, h2, h3, h⟩)

theorem part_pos {p : List Byte} (h : p.length = 1 ∨ isBeginning p) : 1 ≤ p.length := by
  rcases h with h | h
  · omega
  · exact List.length_pos_iff.2 h.1

/-- Bytes read as one text only. -/
theorem reads_unique {bs : List Byte} {s t : Str} (hs : Reads bs s) (ht : Reads bs t) : s = t := by
  induction hs generalizing t with
  | done =>
    rcases reads_cases ht with ⟨_, e⟩ | ⟨c, _, _, e, _⟩ | ⟨p, _, _, e, _, _, h2, _⟩
    · exact e.symm
    · exact absurd (List.append_eq_nil_iff.1 e.symm).1 (encode_ne_nil c)
    · have := part_pos h2
      rw [(List.append_eq_nil_iff.1 e.symm).1] at this
      simp at this
  | char c h ih =>
    rcases reads_cases ht with ⟨e, _⟩ | ⟨c', r, u, e, rfl, h'⟩ | ⟨p, _, _, e, _, h1, _⟩
    · exact absurd (List.append_eq_nil_iff.1 e).1 (encode_ne_nil c)
    · have := decode_encode c' r
      rw [← e, decode_encode] at this
      simp only [Option.some.injEq, Prod.mk.injEq] at this
      obtain ⟨rfl, rfl⟩ := this
      rw [ih h']
    · exact absurd (List.prefix_append _ _) (h1 c)
  | damaged p h1 h2 h3 h ih =>
    have hp := part_pos h2
    rcases reads_cases ht with ⟨e, _⟩ | ⟨c', r, u, e, _⟩ | ⟨p', r, u, e, rfl, _, h2', h3', h'⟩
    · rw [(List.append_eq_nil_iff.1 e).1] at hp
      simp at hp
    · exact absurd (e ▸ List.prefix_append _ _) (h1 c')
    · have hp' := part_pos h2'
      have a : p.length ≤ p'.length := by
        rcases h2 with h2 | h2
        · omega
        · exact h3' p (List.prefix_append _ _) h2
      have b : p'.length ≤ p.length := by
        rcases h2' with h2 | h2
        · omega
        · exact h3 p' (e ▸ List.prefix_append _ _) h2
      obtain ⟨rfl, rfl⟩ := List.append_inj e (by omega)
      rw [ih h']

/-- C97. In UTF-8 mode (`ESC t 255`) text is decoded by the Unicode standard, whatever the bytes and the character set: characters that are all there as
themselves, and one U+FFFD for every longest beginning of a character that is cut short, and for every other byte. -/
theorem C97_damaged (set : Byte) (bs : List Byte) (t : Str) : (contextDecoder 255 set).decode bs = .ok t ↔ Reads bs t := by
  have h := lossyAux_reads bs.length bs (Nat.le_refl _)
  have e : (contextDecoder 255 set).decode bs = .ok (fromUtf8LossyAux bs.length bs) := rfl
  rw [e, Except.ok.injEq]
  exact ⟨fun e => e ▸ h, fun h' => reads_unique h h'⟩

/-- C97, a text that is cut off within a character: the text, and one U+FFFD. -/
theorem C97_cut_off (set : Byte) (t : Str) (p : List Byte) (hp : isBeginning p) : (contextDecoder 255 set).decode (t.bytes ++ p) = .ok (t ++ ['\uFFFD']) := by
  rw [C97_damaged]
  induction t with
  | nil =>
    show Reads p _
    rw [← List.append_nil p]
    refine .damaged p ?_ (.inr hp) ?_ .done
    · rw [List.append_nil]
      rintro c ⟨q, e⟩
      obtain ⟨_, c', ⟨q', e'⟩, hn⟩ := hp
      have h1 := decode_encode c' []
      rw [List.append_nil, ← e', ← e, List.append_assoc, decode_encode] at h1
      simp only [Option.some.injEq, Prod.mk.injEq, List.append_eq_nil_iff] at h1
      obtain ⟨_, _, rfl⟩ := h1
      exact hn (by simpa using e')
    · rw [List.append_nil]
      intro q hq _
      exact hq.length_le
  | cons c t ih =>
    have : Str.bytes (c :: t) ++ p = String.utf8EncodeChar c ++ (Str.bytes t ++ p) := by
      rw [← List.append_assoc]; rfl
    rw [this]
    exact .char c ih

/-- Concrete damaged bytes: "A", the first two bytes of the euro sign, "B", the first two bytes of a character of four, a byte that no character has,
and a surrogate, which is three damaged bytes. -/
example : (contextDecoder 255 0).decode [0x41, 0xE2, 0x82, 0x42, 0xF0, 0xBF, 0xFF, 0xED, 0xA0, 0x80] =
    .ok ['A', '\uFFFD', 'B', '\uFFFD', '\uFFFD', '\uFFFD', '\uFFFD', '\uFFFD'] := by decide +kernel

/-- The first two bytes of the euro sign. -/
example : isBeginning [0xE2, 0x82] := ⟨by simp, '€', by decide +kernel, by decide +kernel⟩

theorem strictAux_sound : ∀ (n : Nat) (bs : List Byte) (t : Str), fromUtf8Aux n bs = some t → bs = t.bytes
  | n, [], t, h => by
    have : t = [] := by cases n <;> simpa [fromUtf8Aux] using h.symm
    subst this; rfl
  | 0, b :: bs, t, h => by simp [fromUtf8Aux] at h
  | n + 1, b :: bs, t, h => by
    rw [fromUtf8Aux] at h
    · split at h
      · cases h
      · next c rest hd =>
        obtain ⟨u, hu, rfl⟩ := Option.map_eq_some_iff.1 h
        rw [decode_sound hd, strictAux_sound n rest u hu]
        rfl
    · simp

theorem strictAux_bytes (t : Str) : ∀ n, t.length ≤ n → fromUtf8Aux n t.bytes = some t := by
  induction t with
  | nil => intro n _; cases n <;> rfl
  | cons c t ih =>
    intro n hn
    rcases n with _ | n
    · simp at hn
    · have e : Str.bytes (c :: t) = String.utf8EncodeChar c ++ Str.bytes t := rfl
      rw [e]
      obtain ⟨b, bs, hb⟩ : ∃ b bs, String.utf8EncodeChar c ++ Str.bytes t = b :: bs := by
        rcases h : String.utf8EncodeChar c with _ | ⟨b, bs⟩
        · exact absurd h (encode_ne_nil c)
        · exact ⟨b, bs ++ Str.bytes t, rfl⟩
      rw [hb, fromUtf8Aux, ← hb, decode_encode]
      · simp only []; rw [ih n (by simp at hn; omega)]; rfl
      · simp

/-- C97, where damaged text is refused (the data of barcodes): it is read exactly when it is the UTF-8 encoding of a text, as that text. -/
theorem C97_strict (bs : List Byte) (t : Str) : fromUtf8 bs = some t ↔ bs = t.bytes := by
  constructor
  · exact strictAux_sound bs.length bs t
  · rintro rfl
    apply strictAux_bytes
    rw [bytes_length]
    induction t with
    | nil => simp
    | cons c t ih =>
      have := Char.utf8Size_pos c
      simp [Str.byteLen] at *; omega

example : fromUtf8 [0xE2, 0x82, 0xAC] = some ['€'] ∧ fromUtf8 [0xE2, 0x82] = none := ⟨(C97_strict _ _).2 (by decide +kernel), by decide +kernel⟩

end Thermal
