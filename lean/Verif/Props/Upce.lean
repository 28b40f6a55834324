import Verif.Model.Upce
import Verif.Spec.Upce
import Verif.Proofs.SubLookup
/-
C60, C61, C62: UPC numbers and UPC-E barcodes.
-/
namespace Thermal

/-! ### The check digit -/

theorem le9 {d : Byte} (h : d ≤ 9) : d.toNat ≤ 9 := UInt8.le_iff_toNat_le.1 h

theorem digits_cons {d : Byte} {ds : List Byte} : Digits (d :: ds) ↔ d.toNat ≤ 9 ∧ Digits ds := by
  unfold Digits
  rw [List.forall_mem_cons, UInt8.le_iff_toNat_le]
  rfl

theorem checkSums_ok (ds : List Byte) (h : Digits ds) : ∀ (odd : Bool) (o e : Nat),
    o + 9 * ds.length < 256 → e + 9 * ds.length < 256 →
    ∃ o' e', checkSums ds odd (o, e) = .ok (o', e') ∧
      3 * o' + e' = 3 * o + e + (if odd then upcSum ds else upcSum (0 :: ds)) ∧
      o' ≤ o + 9 * ((ds.length + (if odd then 1 else 0)) / 2) ∧ e' ≤ e + 9 * ((ds.length + (if odd then 0 else 1)) / 2) := by
  induction ds with
  | nil => intro odd o e _ _; refine ⟨o, e, rfl, ?_, by omega, by omega⟩; cases odd <;> simp [upcSum]
  | cons d ds ih =>
    intro odd o e ho he
    have ⟨h1, h2⟩ := digits_cons.1 h
    simp only [List.length_cons] at ho he
    cases odd with
    | true =>
      have ⟨o', e', hr, hs, hb1, hb2⟩ := ih h2 false (o + d.toNat) e (by omega) (by omega)
      refine ⟨o', e', ?_, ?_, ?_, ?_⟩
      · simp only [checkSums, addU8]
        rw [if_pos (by omega)]
        simpa [bind, Except.bind] using hr
      · rw [hs]
        cases ds with
        | nil => simp [upcSum]; omega
        | cons d2 ds => simp [upcSum]; omega
      · simp only [List.length_cons, if_true, Bool.false_eq_true, if_false] at hb1 hb2 ⊢; omega
      · simp only [List.length_cons, if_true, Bool.false_eq_true, if_false] at hb1 hb2 ⊢; omega
    | false =>
      have ⟨o', e', hr, hs, hb1, hb2⟩ := ih h2 true o (e + d.toNat) (by omega) (by omega)
      refine ⟨o', e', ?_, ?_, ?_, ?_⟩
      · simp only [checkSums, addU8]
        rw [if_pos (by omega)]
        simpa [bind, Except.bind] using hr
      · rw [hs]; simp [upcSum]; omega
      · simp only [List.length_cons, if_true, Bool.false_eq_true, if_false] at hb1 hb2 ⊢; omega
      · simp only [List.length_cons, if_true, Bool.false_eq_true, if_false] at hb1 hb2 ⊢; omega

/-- The check digit of eleven digits, as a number. -/
theorem checkdigit_eq (ds : List Byte) (h : Digits ds) (hl : ds.length = 11) :
    calculateCheckdigit ds = .ok (UInt8.ofNat ((10 - upcSum ds % 10) % 10)) := by
  have ⟨o, e, hr, hs, hb1, hb2⟩ := checkSums_ok ds h true 0 0 (by omega) (by omega)
  simp only [hl, if_true] at hb1 hb2 hs
  unfold calculateCheckdigit
  rw [hr]
  simp only [bind, Except.bind, mulU8, addU8, pure, Except.pure]
  rw [if_pos (by omega)]
  simp only
  rw [if_pos (by omega)]
  have : o * 3 + e = upcSum ds := by omega
  simp only [this]
  congr 2
  split <;> omega

/-- C60. For every number of eleven digits the computed check digit is a digit, and with it the weighted sum is
divisible by ten. -/
theorem C60_divisible (ds : List Byte) (h : Digits ds) (hl : ds.length = 11) :
    ∃ c, calculateCheckdigit ds = .ok c ∧ c ≤ 9 ∧ (upcSum ds + c.toNat) % 10 = 0 := by
  refine ⟨_, checkdigit_eq ds h hl, ?_, ?_⟩
  · rw [UInt8.le_iff_toNat_le, UInt8.toNat_ofNat']
    show _ ≤ 9
    omega
  · rw [UInt8.toNat_ofNat']; omega

theorem upcSum_set (ds : List Byte) : ∀ (i : Nat) (d : Byte) (hi : i < ds.length),
    upcSum (ds.set i d) + (if i % 2 = 0 then 3 else 1) * (ds[i]).toNat = upcSum ds + (if i % 2 = 0 then 3 else 1) * d.toNat := by
  induction ds using upcSum.induct with
  | case1 => intro i d hi; simp at hi
  | case2 a => intro i d hi; simp only [List.length_singleton] at hi; obtain rfl : i = 0 := by omega
               simp [upcSum]; omega
  | case3 a b rest ih =>
    intro i d hi
    match i with
    | 0 => simp [upcSum]; omega
    | 1 => simp [upcSum]; omega
    | i + 2 =>
      have := ih i d (by simpa using hi)
      simp only [List.set_cons_succ, upcSum, List.getElem_cons_succ]
      have e : (i + 2) % 2 = i % 2 := by omega
      rw [e]
      omega

/-- C60. Any single mistyped digit changes the check digit, so it is detected. -/
theorem C60_detects_single_error (ds : List Byte) (h : Digits ds) (hl : ds.length = 11) (i : Nat) (hi : i < ds.length)
    (d : Byte) (hd : d ≤ 9) (hne : d ≠ ds[i]) :
    calculateCheckdigit (ds.set i d) ≠ calculateCheckdigit ds := by
  have h' : Digits (ds.set i d) := by
    intro x hx
    rcases List.mem_or_eq_of_mem_set hx with hx | hx
    · exact h x hx
    · rw [hx]; exact hd
  rw [checkdigit_eq _ h' (by rw [List.length_set]; exact hl), checkdigit_eq _ h hl]
  intro heq
  have heq := congrArg UInt8.toNat (Except.ok.inj heq)
  rw [UInt8.toNat_ofNat', UInt8.toNat_ofNat'] at heq
  have hs := upcSum_set ds i d hi
  have h1 := le9 hd
  have h2 := le9 (h ds[i] (List.getElem_mem hi))
  have hne' : d.toNat ≠ (ds[i]).toNat := fun e => hne (UInt8.toNat_inj.1 e)
  split at hs <;> omega

/-- C60, the hypotheses are met: 0-42100-00526 has check digit 4. -/
example : calculateCheckdigit [0, 4, 2, 1, 0, 0, 0, 0, 5, 2, 6] = .ok 4 := by decide +kernel

/-! ### Encoding -/

/-- What `UPCE::new` accepts is eight digits, the first 0 or 1. -/
def UpceCode (u : List Byte) : Prop := u.length = 8 ∧ Digits u ∧ u.head? = some 0 ∨ u.length = 8 ∧ Digits u ∧ u.head? = some 1

theorem fromUpcA_code (a u : List Byte) (ha : Digits a) (h : fromUpcA a = .ok u) : UpceCode u := by
  unfold fromUpcA at h
  split at h
  · next nsys m0 m1 m2 m3 m4 p0 p1 p2 p3 p4 chck =>
    have hd : nsys ≤ 9 ∧ m0 ≤ 9 ∧ m1 ≤ 9 ∧ m2 ≤ 9 ∧ m3 ≤ 9 ∧ m4 ≤ 9 ∧ p0 ≤ 9 ∧ p1 ≤ 9 ∧ p2 ≤ 9 ∧ p3 ≤ 9 ∧ p4 ≤ 9 ∧ chck ≤ 9 := by
      unfold Digits at ha
      simpa using ha
    obtain ⟨h0, h1, h2, h3, h4, h5, h6, h7, h8, h9, h10, h11⟩ := hd
    have key : ∀ v : List Byte, Except.ok (ε := String) v = .ok u → v.length = 8 → Digits v →
        v.head? = some nsys → (nsys = 0 ∨ nsys = 1) → UpceCode u := by
      intro v hv hl hdg hh hn
      rw [← Except.ok.inj hv]
      rcases hn with hn | hn
      · exact .inl ⟨hl, hdg, by rw [hh, hn]⟩
      · exact .inr ⟨hl, hdg, by rw [hh, hn]⟩
    have h3' : (3 : Byte) ≤ 9 := by decide
    have h4' : (4 : Byte) ≤ 9 := by decide
    split at h
    · cases h
    · next hn =>
      have hn : nsys = 0 ∨ nsys = 1 := by
        by_cases e : nsys = 1
        · exact .inr e
        · by_cases e0 : nsys = 0
          · exact .inl e0
          · exact absurd ⟨e, e0⟩ hn
      repeat' split at h
      all_goals first
        | (cases h; done)
        | (apply key _ h rfl ?_ rfl hn; unfold Digits; simp [*])
  · cases h

theorem expandUpce_digits (b a : List Byte) (hb : Digits b) (h : expandUpce b = .ok a) : Digits a ∧ a.length = 11 := by
  unfold expandUpce at h
  split at h
  · next b0 b1 b2 b3 b4 b5 b6 =>
    have hd : b0 ≤ 9 ∧ b1 ≤ 9 ∧ b2 ≤ 9 ∧ b3 ≤ 9 ∧ b4 ≤ 9 ∧ b5 ≤ 9 ∧ b6 ≤ 9 := by
      unfold Digits at hb
      simpa using hb
    obtain ⟨h0, h1, h2, h3, h4, h5, h6⟩ := hd
    repeat' split at h
    all_goals first
      | (cases h; done)
      | (rw [← Except.ok.inj h]; refine ⟨?_, rfl⟩; unfold Digits; simp [*])
  · cases h

theorem digits_append {a b : List Byte} (ha : Digits a) (hb : Digits b) : Digits (a ++ b) := by
  intro d hd
  rcases List.mem_append.1 hd with h | h
  · exact ha d h
  · exact hb d h

theorem checkdigit_digits (a : List Byte) (ha : Digits a) (hl : a.length = 11) :
    ∃ c, calculateCheckdigit a = .ok c ∧ Digits (a ++ [c]) := by
  have ⟨c, hc, h9, _⟩ := C60_divisible a ha hl
  exact ⟨c, hc, digits_append ha (by intro d hd; simp at hd; rw [hd]; exact h9)⟩

theorem fromUpcE_total (e : List Byte) (he : Digits e) :
    ∃ r, fromUpcE e = .ok r ∧ ∀ u, r = .ok u → UpceCode u := by
  unfold fromUpcE
  split
  · exact ⟨_, rfl, by intro u hu; cases hu⟩
  · next hlen =>
    split
    · exact ⟨_, rfl, by intro u hu; cases hu⟩
    · next upcA hexp =>
      have ⟨hd, hl⟩ := expandUpce_digits _ _ (fun d hd => he d (List.mem_of_mem_take hd)) hexp
      split
      · next checksum hc =>
        refine ⟨_, rfl, fun u hu => fromUpcA_code _ u (digits_append hd ?_) hu⟩
        intro d hd'
        simp at hd'
        rw [hd']
        exact he _ (List.mem_of_getElem? hc)
      · have ⟨c, hc, hdc⟩ := checkdigit_digits upcA hd hl
        rw [hc]
        exact ⟨_, rfl, fun u hu => fromUpcA_code _ u hdc hu⟩

theorem digit_sub : ∀ b : Byte, isDigitByte b = true → b - 48 ≤ 9 := by
  have : ∀ b : Byte, (!isDigitByte b || decide (b - 48 ≤ 9)) = true := by apply byte_all; decide +kernel
  intro b hb
  have := this b
  rw [hb] at this
  simpa using this

/-- `UPCE::new` never panics and only accepts proper codes. -/
theorem upceNew_total (data : List Byte) : ∃ r, upceNew data = .ok r ∧ ∀ u, r = .ok u → UpceCode u := by
  unfold upceNew
  split
  · exact ⟨_, rfl, by intro u hu; cases hu⟩
  · next hany =>
    have hd : Digits (data.map (fun b => b - 48)) := by
      intro d hd
      obtain ⟨b, hb, rfl⟩ := List.mem_map.1 hd
      apply digit_sub
      simp only [List.any_eq_true, not_exists, not_and] at hany
      simpa using hany b hb
    generalize data.map (fun b => b - 48) = digits at hd
    dsimp only
    split
    · exact fromUpcE_total _ (digits_append (a := [0]) (by unfold Digits; decide) hd)
    · split
      · exact fromUpcE_total _ hd
      · split
        · exact fromUpcE_total _ hd
        · split
          · next hl =>
            have ⟨c, hc, hdc⟩ := checkdigit_digits digits hd hl
            rw [hc]
            exact ⟨_, rfl, fun u hu => fromUpcA_code _ u hdc hu⟩
          · split
            · exact ⟨_, rfl, fun u hu => fromUpcA_code _ u hd hu⟩
            · exact ⟨_, rfl, by intro u hu; cases hu⟩

/-- Fold a list of results into one. -/
theorem charEncoding_ok : ∀ (side : Nat), side ≤ 1 → ∀ d : Byte, d ≤ 9 →
    ∃ e, charEncoding side d = .ok e ∧ e.length = 7 ∧ ∀ m ∈ e, m = 0 ∨ m = 1 := by
  have h : ∀ d : Byte, (!decide (d ≤ 9) || ((List.range 2).all fun side =>
      match charEncoding side d with
      | .ok e => e.length == 7 && e.all (fun m => m == 0 || m == 1)
      | .error _ => false)) = true := by
    apply byte_all; decide +kernel
  intro side hs d hd
  have := h d
  rw [decide_eq_true hd] at this
  simp only [Bool.not_true, Bool.false_or] at this
  have := List.all_eq_true.1 this side (List.mem_range.2 (by omega))
  split at this
  · next e he =>
    simp only [Bool.and_eq_true, beq_iff_eq, List.all_eq_true, Bool.or_eq_true] at this
    exact ⟨e, he, this.1, this.2⟩
  · cases this

theorem encodeDigits_ok (l : List (Byte × Nat)) (h : ∀ q ∈ l, q.1 ≤ 9 ∧ q.2 ≤ 1) :
    ∃ e, encodeDigits l = .ok e ∧ e.length = 7 * l.length ∧ ∀ m ∈ e, m = 0 ∨ m = 1 := by
  induction l with
  | nil => exact ⟨[], rfl, rfl, by simp⟩
  | cons q l ih =>
    obtain ⟨d, s⟩ := q
    have hq := h (d, s) (by simp)
    have ⟨e, he, hel, heb⟩ := charEncoding_ok s hq.2 d hq.1
    have ⟨r, hr, hrl, hrb⟩ := ih (fun q hq => h q (List.mem_cons_of_mem _ hq))
    refine ⟨e ++ r, ?_, ?_, ?_⟩
    · simp only [encodeDigits, he, hr, bind, Except.bind, pure, Except.pure]
    · rw [List.length_append, hel, hrl, List.length_cons]; omega
    · intro m hm
      rcases List.mem_append.1 hm with h | h
      · exact heb m h
      · exact hrb m h

/-- The parity row: six entries, each 0 or 1. -/
theorem parity_ok : ∀ s c : Byte, s ≤ 1 → c ≤ 9 →
    ∃ p t, idx upceParityTable s.toNat = .ok t ∧ idx t c.toNat = .ok p ∧ p.length = 6 ∧ ∀ x ∈ p, x ≤ 1 := by
  have h : ∀ c : Byte, (!decide (c ≤ 9) || ((List.range 2).all fun s =>
      match idx upceParityTable s with
      | .ok t => match idx t c.toNat with
        | .ok p => p.length == 6 && p.all (fun x => x ≤ 1)
        | .error _ => false
      | .error _ => false)) = true := by
    apply byte_all; decide +kernel
  intro s c hs hc
  have := h c
  rw [decide_eq_true hc] at this
  simp only [Bool.not_true, Bool.false_or] at this
  have hs := UInt8.le_iff_toNat_le.1 hs
  have := List.all_eq_true.1 this s.toNat (List.mem_range.2 (by change s.toNat ≤ 1 at hs; omega))
  split at this
  · next t ht =>
    split at this
    · next p hp =>
      simp only [Bool.and_eq_true, beq_iff_eq, List.all_eq_true, decide_eq_true_eq] at this
      exact ⟨p, t, ht, hp, this.1, this.2⟩
    · cases this
  · cases this

/-- The digits of a code. -/
theorem code_cases {u : List Byte} (h : UpceCode u) : ∃ s a b c d e l k : Byte, u = [s, a, b, c, d, e, l, k] ∧ s ≤ 1 ∧
    a ≤ 9 ∧ b ≤ 9 ∧ c ≤ 9 ∧ d ≤ 9 ∧ e ≤ 9 ∧ l ≤ 9 ∧ k ≤ 9 := by
  have : u.length = 8 ∧ Digits u ∧ ∃ s : Byte, u.head? = some s ∧ s ≤ 1 := by
    rcases h with h | h
    · exact ⟨h.1, h.2.1, 0, h.2.2, by decide⟩
    · exact ⟨h.1, h.2.1, 1, h.2.2, by decide⟩
  obtain ⟨hl, hd, s, hs, hs1⟩ := this
  match u, hl with
  | [s', a, b, c, d, e, l, k], _ =>
    have hs : s' = s := by simpa using hs
    subst hs
    unfold Digits at hd
    simp only [List.forall_mem_cons] at hd
    exact ⟨s', a, b, c, d, e, l, k, rfl, hs1, hd.2.1, hd.2.2.1, hd.2.2.2.1, hd.2.2.2.2.1, hd.2.2.2.2.2.1, hd.2.2.2.2.2.2.1,
      hd.2.2.2.2.2.2.2.1⟩

/-- The encoding of a code: guards around the six digits in the parities of the number system and check digit. -/
theorem encode_eq (s a b c d e l k : Byte) (p : List Nat) (hp : upceParity [s, a, b, c, d, e, l, k] = .ok p) :
    upceEncode [s, a, b, c, d, e, l, k] =
      (encodeDigits ([a, b, c, d, e, l].zip p)).map (fun x => leftGuard ++ x ++ middleGuard ++ upceRightGuard) := by
  unfold upceEncode upcePayload
  rw [hp]
  simp only [slice, List.length_cons, List.length_nil, bind, Except.bind, pure, Except.pure]
  rw [if_pos (by decide)]
  simp only [List.take_succ_cons, List.take_zero, List.drop_succ_cons, List.drop_zero]
  cases encodeDigits ([a, b, c, d, e, l].zip p) <;> rfl

theorem upceParity_eq (s a b c d e l k : Byte) : upceParity [s, a, b, c, d, e, l, k] =
    (idx upceParityTable s.toNat).bind (fun t => idx t k.toNat) := rfl

theorem encode_shape {u : List Byte} (h : UpceCode u) :
    ∃ p x, upceParity u = .ok p ∧ p.length = 6 ∧ (∀ y ∈ p, y ≤ 1) ∧ encodeDigits (((u.drop 1).take 6).zip p) = .ok x ∧
      x.length = 42 ∧ (∀ m ∈ x, m = 0 ∨ m = 1) ∧ upceEncode u = .ok (leftGuard ++ x ++ middleGuard ++ upceRightGuard) := by
  obtain ⟨s, a, b, c, d, e, l, k, rfl, hs, h1, h2, h3, h4, h5, h6, h7⟩ := code_cases h
  have ⟨p, t, ht, hp, hpl, hpb⟩ := parity_ok s k hs h7
  have hpar : upceParity [s, a, b, c, d, e, l, k] = .ok p := by rw [upceParity_eq, ht]; exact hp
  have ⟨x, hx, hxl, hxb⟩ := encodeDigits_ok ([a, b, c, d, e, l].zip p) (by
    intro q hq
    have hq1 := List.of_mem_zip hq
    refine ⟨?_, hpb _ hq1.2⟩
    have : Digits [a, b, c, d, e, l] := by unfold Digits; simp [*]
    exact this _ hq1.1)
  refine ⟨p, x, hpar, hpl, hpb, hx, ?_, hxb, ?_⟩
  · rw [hxl, List.length_zip, hpl]; rfl
  · rw [encode_eq _ _ _ _ _ _ _ _ p hpar, hx]; rfl

/-- C61. Whatever the barcode data, creating a UPC-E barcode returns (no panic); and an accepted one encodes to exactly
51 modules, all 0 or 1, beginning with the guard 101 and ending with the guard 010101. -/
theorem C61_51_modules (data : List Byte) :
    ∃ r, upceNew data = .ok r ∧ ∀ u, r = .ok u →
      ∃ m, upceEncode u = .ok m ∧ m.length = 51 ∧ (∀ x ∈ m, x = 0 ∨ x = 1) ∧
        m.take 3 = [1, 0, 1] ∧ m.drop 45 = [0, 1, 0, 1, 0, 1] := by
  have ⟨r, hr, hc⟩ := upceNew_total data
  refine ⟨r, hr, fun u hu => ?_⟩
  have ⟨p, x, _, _, _, _, hxl, hxb, he⟩ := encode_shape (hc u hu)
  refine ⟨_, he, ?_, ?_, ?_, ?_⟩
  · simp [leftGuard, middleGuard, upceRightGuard, hxl]
  · intro y hy
    simp only [leftGuard, middleGuard, upceRightGuard, List.mem_append] at hy
    rcases hy with ((hy | hy) | hy) | hy
    · simp at hy; rcases hy with h | h | h <;> simp [h]
    · exact hxb y hy
    · simp at hy; rcases hy with h | h | h | h | h <;> simp [h]
    · simp at hy; simp [hy]
  · rfl
  · rw [List.append_assoc (leftGuard ++ x), List.drop_left' (by simp [leftGuard, hxl])]
    rfl

/-- A module pattern determines its digit and parity. -/
theorem charEncoding_inj : ∀ (s s' : Nat), s ≤ 1 → s' ≤ 1 → ∀ d d' : Byte, d ≤ 9 → d' ≤ 9 →
    charEncoding s d = charEncoding s' d' → s = s' ∧ d = d' := by
  have h : ∀ i < 10, ∀ j < 10, ∀ s < 2, ∀ s' < 2,
      (!decide (charEncoding s (UInt8.ofNat i) = charEncoding s' (UInt8.ofNat j)) || decide (s = s' ∧ i = j)) = true := by decide +kernel
  have h : ∀ i < 10, ∀ j < 10, ∀ s < 2, ∀ s' < 2,
      charEncoding s (UInt8.ofNat i) = charEncoding s' (UInt8.ofNat j) → s = s' ∧ i = j := by
    intro i hi j hj s hs s' hs' he
    have := h i hi j hj s hs s' hs'
    rw [decide_eq_true he] at this
    simpa using this
  intro s s' hs hs' d d' hd hd' he
  have hd := le9 hd
  have hd' := le9 hd'
  have := h d.toNat (by omega) d'.toNat (by omega) s (by omega) s' (by omega) (by simpa using he)
  exact ⟨this.1, UInt8.toNat_inj.1 this.2⟩

theorem encodeDigits_inj (l l' : List (Byte × Nat)) (h : ∀ q ∈ l, q.1 ≤ 9 ∧ q.2 ≤ 1) (h' : ∀ q ∈ l', q.1 ≤ 9 ∧ q.2 ≤ 1)
    (x : List Byte) (e : encodeDigits l = .ok x) (e' : encodeDigits l' = .ok x) : l = l' := by
  induction l generalizing l' x with
  | nil =>
    have ⟨y, hy, hyl, _⟩ := encodeDigits_ok l' h'
    rw [e'] at hy
    cases l' with
    | nil => rfl
    | cons q l' => 
      have hxy : x = y := Except.ok.inj hy
      have : x = [] := (Except.ok.inj e).symm
      rw [← hxy, this] at hyl
      simp at hyl
  | cons q l ih => 
    cases l' with
    | nil =>
      have ⟨y, hy, hyl, _⟩ := encodeDigits_ok (q :: l) h
      have hxy : x = y := by rw [e] at hy; exact Except.ok.inj hy
      have : x = [] := (Except.ok.inj e').symm
      rw [← hxy, this] at hyl
      simp at hyl
    | cons q' l' =>
      obtain ⟨d, s⟩ := q
      obtain ⟨d', s'⟩ := q'
      have hq := h (d, s) (by simp)
      have hq' := h' (d', s') (by simp)
      have ⟨c, hc, hcl, _⟩ := charEncoding_ok s hq.2 d hq.1
      have ⟨c', hc', hcl', _⟩ := charEncoding_ok s' hq'.2 d' hq'.1
      have ⟨r, hr, _, _⟩ := encodeDigits_ok l (fun q hq => h q (List.mem_cons_of_mem _ hq))
      have ⟨r', hr', _, _⟩ := encodeDigits_ok l' (fun q hq => h' q (List.mem_cons_of_mem _ hq))
      simp only [encodeDigits, hc, hr, bind, Except.bind, pure, Except.pure] at e
      simp only [encodeDigits, hc', hr', bind, Except.bind, pure, Except.pure] at e'
      have heq : c ++ r = c' ++ r' := (Except.ok.inj e).trans (Except.ok.inj e').symm
      have ⟨h1, h2⟩ := List.append_inj heq (by rw [hcl, hcl'])
      have ⟨h3, h4⟩ := charEncoding_inj s s' hq.2 hq'.2 d d' hq.1 hq'.1 (by rw [hc, hc', h1])
      rw [h3, h4]
      congr 1
      exact ih l' (fun q hq => h q (List.mem_cons_of_mem _ hq)) (fun q hq => h' q (List.mem_cons_of_mem _ hq)) r hr
        (by rw [hr', h2])

theorem parity_inj : ∀ s s' k k' : Byte, s ≤ 1 → s' ≤ 1 → k ≤ 9 → k' ≤ 9 →
    (idx upceParityTable s.toNat).bind (fun t => idx t k.toNat) = (idx upceParityTable s'.toNat).bind (fun t => idx t k'.toNat) →
    s = s' ∧ k = k' := by
  have h : ∀ i < 10, ∀ j < 10, ∀ s < 2, ∀ s' < 2,
      (idx upceParityTable s).bind (fun t => idx t i) = (idx upceParityTable s').bind (fun t => idx t j) → s = s' ∧ i = j := by
    have h : ∀ i < 10, ∀ j < 10, ∀ s < 2, ∀ s' < 2,
        (!decide ((idx upceParityTable s).bind (fun t => idx t i) = (idx upceParityTable s').bind (fun t => idx t j)) ||
          decide (s = s' ∧ i = j)) = true := by decide +kernel
    intro i hi j hj s hs s' hs' he
    have := h i hi j hj s hs s' hs'
    rw [decide_eq_true he] at this
    simpa using this
  intro s s' k k' hs hs' hk hk' he
  have hs : s.toNat ≤ 1 := UInt8.le_iff_toNat_le.1 hs
  have hs' : s'.toNat ≤ 1 := UInt8.le_iff_toNat_le.1 hs'
  have hk := le9 hk
  have hk' := le9 hk'
  have := h k.toNat (by omega) k'.toNat (by omega) s.toNat (by omega) s'.toNat (by omega) he
  exact ⟨UInt8.toNat_inj.1 this.1, UInt8.toNat_inj.1 this.2⟩

theorem code_zip_bound {u : List Byte} (h : UpceCode u) {p : List Nat} (hp : ∀ y ∈ p, y ≤ 1) :
    ∀ q ∈ ((u.drop 1).take 6).zip p, q.1 ≤ 9 ∧ q.2 ≤ 1 := by
  intro q hq
  have hq1 := List.of_mem_zip hq
  refine ⟨?_, hp _ hq1.2⟩
  have hd : Digits u := by rcases h with h | h <;> exact h.2.1
  exact hd _ (List.mem_of_mem_drop (List.mem_of_mem_take hq1.1))

/-- C61. The bars determine the code: two accepted codes with the same modules are the same number, including the number
system and the check digit (which are only encoded in the parities). -/
theorem C61_readable (d d' u u' : List Byte) (h : upceNew d = .ok (.ok u)) (h' : upceNew d' = .ok (.ok u'))
    (he : upceEncode u = upceEncode u') : u = u' := by
  have hu : UpceCode u := by
    have ⟨r, hr, hc⟩ := upceNew_total d
    rw [h] at hr
    exact hc u (Except.ok.inj hr).symm
  have hu' : UpceCode u' := by
    have ⟨r, hr, hc⟩ := upceNew_total d'
    rw [h'] at hr
    exact hc u' (Except.ok.inj hr).symm
  have ⟨p, x, hp, hpl, hpb, hx, _, _, hex⟩ := encode_shape hu
  have ⟨p', x', hp', hpl', hpb', hx', _, _, hex'⟩ := encode_shape hu'
  rw [hex, hex'] at he
  have hxx : x = x' := by
    have := Except.ok.inj he
    rw [List.append_assoc, List.append_assoc, List.append_assoc, List.append_assoc] at this
    exact List.append_cancel_right (List.append_cancel_left this)
  subst hxx
  have hz := encodeDigits_inj _ _ (code_zip_bound hu hpb) (code_zip_bound hu' hpb') x hx hx'
  obtain ⟨s, a, b, c, dd, e, l, k, rfl, hs, h1, h2, h3, h4, h5, h6, h7⟩ := code_cases hu
  obtain ⟨s', a', b', c', dd', e', l', k', rfl, hs', h1', h2', h3', h4', h5', h6', h7'⟩ := code_cases hu'
  have hl6 : ∀ q : List Nat, q.length = 6 → ([a, b, c, dd, e, l].zip q).map Prod.fst = [a, b, c, dd, e, l] := by
    intro q hq; apply List.map_fst_zip; simp [hq]
  have hl6' : ∀ q : List Nat, q.length = 6 → ([a', b', c', dd', e', l'].zip q).map Prod.fst = [a', b', c', dd', e', l'] := by
    intro q hq; apply List.map_fst_zip; simp [hq]
  have e1 := congrArg (List.map Prod.fst) hz
  have e2 := congrArg (List.map Prod.snd) hz
  simp only [List.drop_succ_cons, List.drop_zero, List.take_succ_cons, List.take_zero] at e1 e2
  rw [hl6 p hpl, hl6' p' hpl'] at e1
  rw [List.map_snd_zip (by simp [hpl]), List.map_snd_zip (by simp [hpl'])] at e2
  subst e2
  rw [upceParity_eq] at hp hp'
  have ⟨e3, e4⟩ := parity_inj s s' k k' hs hs' h7 h7' (by rw [hp, hp'])
  simp only [List.cons.injEq, and_true] at e1
  obtain ⟨r1, r2, r3, r4, r5, r6⟩ := e1
  subst r1 r2 r3 r4 r5 r6 e3 e4
  rfl

theorem charEncoding_standard : ∀ (even : Bool) (d : Byte), d ≤ 9 →
    charEncoding (if even then 1 else 0) d = .ok (digitModules even d.toNat) := by
  have h : ∀ d : Byte, (!decide (d ≤ 9) || (decide (charEncoding 0 d = .ok (digitModules false d.toNat)) &&
      decide (charEncoding 1 d = .ok (digitModules true d.toNat)))) = true := by
    apply byte_all; decide +kernel
  intro even d hd
  have := h d
  rw [decide_eq_true hd] at this
  simp only [Bool.not_true, Bool.false_or, Bool.and_eq_true, decide_eq_true_eq] at this
  cases even
  · exact this.1
  · exact this.2

theorem parity_standard : ∀ s k : Byte, s ≤ 1 → k ≤ 9 →
    (idx upceParityTable s.toNat).bind (fun t => idx t k.toNat) = .ok ((parities s k).map (fun e => if e then 1 else 0)) := by
  have h : ∀ k : Byte, (!decide (k ≤ 9) || (decide ((idx upceParityTable 0).bind (fun t => idx t k.toNat) =
        .ok ((parities 0 k).map (fun e => if e then 1 else 0))) &&
      decide ((idx upceParityTable 1).bind (fun t => idx t k.toNat) = .ok ((parities 1 k).map (fun e => if e then 1 else 0))))) = true := by
    apply byte_all; decide +kernel
  intro s k hs hk
  have := h k
  rw [decide_eq_true hk] at this
  simp only [Bool.not_true, Bool.false_or, Bool.and_eq_true, decide_eq_true_eq] at this
  have hs : s.toNat ≤ 1 := UInt8.le_iff_toNat_le.1 hs
  have : s = 0 ∨ s = 1 := by
    rcases Nat.lt_or_ge s.toNat 1 with h | h
    · left; apply UInt8.toNat_inj.1; show s.toNat = 0; omega
    · right; apply UInt8.toNat_inj.1; show s.toNat = 1; omega
  rcases this with rfl | rfl
  · exact (by assumption : _ ∧ _).1
  · exact (by assumption : _ ∧ _).2

theorem encodeDigits_standard (ds : List Byte) (ps : List Bool) (hd : Digits ds) :
    encodeDigits (ds.zip (ps.map (fun e => if e then 1 else 0))) =
      .ok ((ds.zip ps).map (fun x => digitModules x.2 x.1.toNat)).flatten := by
  induction ds generalizing ps with
  | nil => rfl
  | cons d ds ih =>
    cases ps with
    | nil => rfl
    | cons p ps =>
      simp only [List.map_cons, List.zip_cons_cons, encodeDigits]
      rw [charEncoding_standard p d (hd d (by simp)), ih ps (fun x hx => hd x (by simp [hx]))]
      simp only [bind, Except.bind, pure, Except.pure, List.flatten_cons]

/-- C61. The bars are exactly those of the UPC-E symbol of the number: guards, and six digits in the parities that stand for
the number system and the check digit. -/
theorem C61_symbol (data u : List Byte) (h : upceNew data = .ok (.ok u)) : upceEncode u = .ok (upceSymbol u) := by
  have hu : UpceCode u := by
    have ⟨r, hr, hc⟩ := upceNew_total data
    rw [h] at hr
    exact hc u (Except.ok.inj hr).symm
  obtain ⟨s, a, b, c, d, e, l, k, rfl, hs, h1, h2, h3, h4, h5, h6, h7⟩ := code_cases hu
  have hp : upceParity [s, a, b, c, d, e, l, k] = .ok ((parities s k).map (fun e => if e then 1 else 0)) := by
    rw [upceParity_eq]; exact parity_standard s k hs h7
  rw [encode_eq _ _ _ _ _ _ _ _ _ hp, encodeDigits_standard _ _ (by unfold Digits; simp [*])]
  simp only [Except.map, upceSymbol, leftGuard, middleGuard, upceRightGuard, List.append_assoc]
  rfl

/-- C61, a non-trivial accepted code. -/
example : upceNew "0425261".toUTF8.toList = .ok (.ok [0, 4, 2, 5, 2, 6, 1, 4]) := by decide +kernel

/-! ### Compression -/

theorem ascii_sub : ∀ d : Byte, d ≤ 9 → isDigitByte (d + 48) = true ∧ d + 48 - 48 = d := by
  have h : ∀ d : Byte, (!decide (d ≤ 9) || (isDigitByte (d + 48) && decide (d + 48 - 48 = d))) = true := by
    apply byte_all; decide +kernel
  intro d hd
  have := h d
  rw [decide_eq_true hd] at this
  simpa using this

theorem asciiDigits_parse (ds : List Byte) (h : Digits ds) :
    (asciiDigits ds).any (fun b => !isDigitByte b) = false ∧ (asciiDigits ds).map (fun b => b - 48) = ds := by
  unfold asciiDigits
  constructor
  · rw [Bool.eq_false_iff]
    intro hc
    rw [List.any_eq_true] at hc
    obtain ⟨b, hb, hb2⟩ := hc
    obtain ⟨d, hd, rfl⟩ := List.mem_map.1 hb
    rw [(ascii_sub d (h d hd)).1] at hb2
    cases hb2
  · rw [List.map_map]
    conv => rhs; rw [← List.map_id ds]
    apply List.map_congr_left
    intro d hd
    exact (ascii_sub d (h d hd)).2

theorem upceNew_ascii (ds : List Byte) (h : Digits ds) : upceNew (asciiDigits ds) =
    if ds.length = 6 then fromUpcE (0 :: ds)
    else if ds.length = 7 then fromUpcE ds
    else if ds.length = 8 then fromUpcE ds
    else if ds.length = 11 then do
      let c ← calculateCheckdigit ds
      pure (fromUpcA (ds ++ [c]))
    else if ds.length = 12 then pure (fromUpcA ds)
    else pure (.error "Invalid UPCA: Data length is not correct. Valid lengths are 6,7,8,11 and 12") := by
  have ⟨h1, h2⟩ := asciiDigits_parse ds h
  unfold upceNew
  rw [h1, h2]
  rfl

theorem expand_of (u a : List Byte) (h : ExpandsTo u a) : expandUpce u = .ok a ∧ u.length = 7 ∧ a.length = 11 := by
  cases h with
  | low s a b c d e l hl =>
    have : l = 0 ∨ l = 1 ∨ l = 2 := by
      have : ∀ l : Byte, (!decide (l ≤ 2) || decide (l = 0 ∨ l = 1 ∨ l = 2)) = true := by apply byte_all; decide +kernel
      have := this l
      rw [decide_eq_true hl] at this
      simpa using this
    refine ⟨?_, rfl, rfl⟩
    simp only [expandUpce]
    rw [if_pos this]
  | three s a b c d e => exact ⟨rfl, rfl, rfl⟩
  | four s a b c d e => exact ⟨rfl, rfl, rfl⟩
  | high s a b c d e l hl hl9 =>
    refine ⟨?_, rfl, rfl⟩
    have h5 := UInt8.le_iff_toNat_le.1 hl
    simp only [expandUpce]
    rw [if_neg, if_neg, if_neg, if_pos ⟨hl, hl9⟩]
    · rintro rfl; revert h5; decide
    · rintro rfl; revert h5; decide
    · rintro (rfl | rfl | rfl) <;> revert h5 <;> decide

theorem compress_of (u a : List Byte) (h : ExpandsTo u a) (hc : Canonical u) (k : Byte) : fromUpcA (a ++ [k]) = .ok (u ++ [k]) := by
  cases h with
  | low s a b c d e l hl =>
    have hl : l = 0 ∨ l = 1 ∨ l = 2 := by
      have : ∀ l : Byte, (!decide (l ≤ 2) || decide (l = 0 ∨ l = 1 ∨ l = 2)) = true := by apply byte_all; decide +kernel
      have := this l
      rw [decide_eq_true hl] at this
      simpa using this
    have hs : s = 0 ∨ s = 1 := by
      have : ∀ l : Byte, (!decide (l ≤ 1) || decide (l = 0 ∨ l = 1)) = true := by apply byte_all; decide +kernel
      have := this s
      rw [decide_eq_true hc.1] at this
      simpa using this
    simp only [List.cons_append, List.nil_append, fromUpcA]
    rcases hs with rfl | rfl <;> rcases hl with rfl | rfl | rfl <;> simp
  | three s a b c d e =>
    have hs : s = 0 ∨ s = 1 := by
      have : ∀ l : Byte, (!decide (l ≤ 1) || decide (l = 0 ∨ l = 1)) = true := by apply byte_all; decide +kernel
      have := this s
      rw [decide_eq_true hc.1] at this
      simpa using this
    have hc3 : c ≠ 0 ∧ c ≠ 1 ∧ c ≠ 2 := by
      have h3 := UInt8.le_iff_toNat_le.1 (hc.2.1 rfl)
      refine ⟨?_, ?_, ?_⟩ <;> (rintro rfl; revert h3; decide)
    simp only [List.cons_append, List.nil_append, fromUpcA]
    rcases hs with rfl | rfl <;> simp [hc3]
  | four s a b c d e =>
    have hs : s = 0 ∨ s = 1 := by
      have : ∀ l : Byte, (!decide (l ≤ 1) || decide (l = 0 ∨ l = 1)) = true := by apply byte_all; decide +kernel
      have := this s
      rw [decide_eq_true hc.1] at this
      simpa using this
    have hd := hc.2.2.1 rfl
    simp only [List.cons_append, List.nil_append, fromUpcA]
    rcases hs with rfl | rfl <;> simp [hd]
  | high s a b c d e l hl hl9 =>
    have hs : s = 0 ∨ s = 1 := by
      have : ∀ l : Byte, (!decide (l ≤ 1) || decide (l = 0 ∨ l = 1)) = true := by apply byte_all; decide +kernel
      have := this s
      rw [decide_eq_true hc.1] at this
      simpa using this
    have he := hc.2.2.2 hl
    have h5 : ¬ l < 5 := UInt8.not_lt.2 hl
    have h9 : ¬ l > 9 := UInt8.not_lt.2 hl9
    simp only [List.cons_append, List.nil_append, fromUpcA]
    rcases hs with rfl | rfl <;> simp [he, h5, h9]

/-- C62. A canonical UPC-E number `u` of seven digits that stands for the UPC-A number `a` gives the code `u` with the
check digit of `a`, however it is written in the barcode data: as its seven digits, as the eleven digits of `a`, with
the check digit appended to either, or (number system 0) as its last six digits. -/
theorem C62_round_trip (u a : List Byte) (hu : Digits u) (hx : ExpandsTo u a) (hc : Canonical u) :
    ∃ k, calculateCheckdigit a = .ok k ∧
      upceNew (asciiDigits u) = .ok (.ok (u ++ [k])) ∧
      upceNew (asciiDigits (u ++ [k])) = .ok (.ok (u ++ [k])) ∧
      upceNew (asciiDigits a) = .ok (.ok (u ++ [k])) ∧
      upceNew (asciiDigits (a ++ [k])) = .ok (.ok (u ++ [k])) ∧
      (u.head? = some 0 → upceNew (asciiDigits (u.drop 1)) = .ok (.ok (u ++ [k]))) := by
  have ⟨hexp, hul, hal⟩ := expand_of u a hx
  have ⟨had, _⟩ := expandUpce_digits u a hu hexp
  have ⟨k, hk, hk9, _⟩ := C60_divisible a had hal
  have hkd : Digits [k] := by intro d hd; simp at hd; rw [hd]; exact hk9
  have hcomp := compress_of u a hx hc
  have hE : fromUpcE u = .ok (.ok (u ++ [k])) := by
    unfold fromUpcE
    rw [if_neg (by omega), List.take_of_length_le (by omega), hexp, List.getElem?_eq_none (by omega)]
    simp only [hk, bind, Except.bind, pure, Except.pure, hcomp]
  refine ⟨k, hk, ?_, ?_, ?_, ?_, ?_⟩
  · rw [upceNew_ascii u hu, if_neg (by omega), if_pos hul, hE]
  · rw [upceNew_ascii _ (digits_append hu hkd), if_neg (by simp; omega), if_neg (by simp; omega), if_pos (by simp; omega)]
    unfold fromUpcE
    rw [if_neg (by simp; omega), List.take_left' hul, hexp]
    rw [List.getElem?_append_right (by omega), hul]
    simp only [Nat.sub_self, List.getElem?_cons_zero, pure, Except.pure, hcomp]
  · rw [upceNew_ascii a had, if_neg (by omega), if_neg (by omega), if_neg (by omega), if_pos hal, hk]
    simp only [bind, Except.bind, pure, Except.pure, hcomp]
  · rw [upceNew_ascii _ (digits_append had hkd)]
    simp only [List.length_append, List.length_singleton, hal]
    simp only [pure, Except.pure, hcomp]
    rfl
  · intro h0
    have hu' : u = 0 :: u.drop 1 := by
      cases u with
      | nil => simp at h0
      | cons x t => simp at h0; rw [h0]; rfl
    rw [upceNew_ascii _ (fun d hd => hu d (List.mem_of_mem_drop hd)), if_pos (by rw [List.length_drop]; omega), ← hu', hE]

/-- C62, the hypotheses are met: UPC-E 0-425261 is UPC-A 0-42100-00526. -/
example : ExpandsTo [0, 4, 2, 5, 2, 6, 1] [0, 4, 2, 1, 0, 0, 0, 0, 5, 2, 6] ∧ Canonical [0, 4, 2, 5, 2, 6, 1] :=
  ⟨ExpandsTo.low 0 4 2 5 2 6 1 (by decide), by unfold Canonical; decide⟩

/-- C67 is false of the code: the product code is only range-checked when *all* its leading digits are non-zero, so the
UPC-A number 0-12000-10345 is accepted and printed as UPC-E 0-123450, which stands for 0-12000-00345. -/
theorem C67_suppression_wrong :
    ∃ k, upceNew (asciiDigits [0, 1, 2, 0, 0, 0, 1, 0, 3, 4, 5]) = .ok (.ok ([0, 1, 2, 3, 4, 5, 0] ++ [k])) ∧
      ExpandsTo [0, 1, 2, 3, 4, 5, 0] [0, 1, 2, 0, 0, 0, 0, 0, 3, 4, 5] ∧
      ¬ ExpandsTo [0, 1, 2, 3, 4, 5, 0] [0, 1, 2, 0, 0, 0, 1, 0, 3, 4, 5] :=
  ⟨2, by decide +kernel, ExpandsTo.low 0 1 2 3 4 5 0 (by decide), by intro h; cases h⟩

/-- C67, the part that holds.  A UPC-A number that has a UPC-E form (with number system 0 or 1) is accepted, and the code
that is printed stands for exactly this number.  Missing: a number without a UPC-E form should be rejected, see
`C67_suppression_wrong`. -/
theorem C67_suppression_exact_partial (v a : List Byte) (ha : Digits a) (hv : ExpandsTo v a) (hs : a.head? = some 0 ∨ a.head? = some 1)
    (k : Byte) (hk : k ≤ 9) :
    ∃ u, upceNew (asciiDigits (a ++ [k])) = .ok (.ok (u ++ [k])) ∧ ExpandsTo u a := by
  have hkd : Digits [k] := by intro d hd; simp at hd; rw [hd]; exact hk
  have ⟨_, _, hal⟩ := expand_of v a hv
  have hn : upceNew (asciiDigits (a ++ [k])) = .ok (fromUpcA (a ++ [k])) := by
    rw [upceNew_ascii _ (digits_append ha hkd)]
    simp only [List.length_append, List.length_singleton, hal]
    rfl
  rw [hn]
  have fin : ∀ l : Byte, l ≤ 2 → l = 0 ∨ l = 1 ∨ l = 2 := by
    have : ∀ l : Byte, (!decide (l ≤ 2) || decide (l = 0 ∨ l = 1 ∨ l = 2)) = true := by apply byte_all; decide +kernel
    intro l hl
    have := this l
    rw [decide_eq_true hl] at this
    simpa using this
  have low : ∀ s a b c d e l : Byte, (s = 0 ∨ s = 1) → (l = 0 ∨ l = 1 ∨ l = 2) →
      ∃ u, (Except.ok (fromUpcA ([s, a, b, l, 0, 0, 0, 0, c, d, e] ++ [k])) : Rs _) = .ok (.ok (u ++ [k])) ∧
        ExpandsTo u [s, a, b, l, 0, 0, 0, 0, c, d, e] := by
    intro s a b c d e l hs hl
    refine ⟨[s, a, b, c, d, e, l], ?_, ExpandsTo.low s a b c d e l (by rcases hl with rfl | rfl | rfl <;> decide)⟩
    simp only [List.cons_append, List.nil_append, fromUpcA]
    rcases hs with rfl | rfl <;> rcases hl with rfl | rfl | rfl <;> simp
  have three : ∀ s a b c d e : Byte, (s = 0 ∨ s = 1) →
      ∃ u, (Except.ok (fromUpcA ([s, a, b, c, 0, 0, 0, 0, 0, d, e] ++ [k])) : Rs _) = .ok (.ok (u ++ [k])) ∧
        ExpandsTo u [s, a, b, c, 0, 0, 0, 0, 0, d, e] := by
    intro s a b c d e hs
    by_cases hc : c = 0 ∨ c = 1 ∨ c = 2
    · exact low s a b 0 d e c hs hc
    · refine ⟨[s, a, b, c, d, e, 3], ?_, ExpandsTo.three s a b c d e⟩
      simp only [not_or] at hc
      simp only [List.cons_append, List.nil_append, fromUpcA]
      rcases hs with rfl | rfl <;> simp [hc]
  have four : ∀ s a b c d e : Byte, (s = 0 ∨ s = 1) →
      ∃ u, (Except.ok (fromUpcA ([s, a, b, c, d, 0, 0, 0, 0, 0, e] ++ [k])) : Rs _) = .ok (.ok (u ++ [k])) ∧
        ExpandsTo u [s, a, b, c, d, 0, 0, 0, 0, 0, e] := by
    intro s a b c d e hs
    by_cases hd : d = 0
    · subst hd; exact three s a b c 0 e hs
    · refine ⟨[s, a, b, c, d, e, 4], ?_, ExpandsTo.four s a b c d e⟩
      simp only [List.cons_append, List.nil_append, fromUpcA]
      rcases hs with rfl | rfl <;> simp [hd]
  cases hv with
  | low s a b c d e l hl => exact low s a b c d e l (by simpa using hs) (fin l hl)
  | three s a b c d e => exact three s a b c d e (by simpa using hs)
  | four s a b c d e => exact four s a b c d e (by simpa using hs)
  | high s a b c d e l hl hl9 =>
    have hs' : s = 0 ∨ s = 1 := by simpa using hs
    clear hs
    by_cases he : e = 0
    · subst he; exact four s a b c d l hs'
    · refine ⟨[s, a, b, c, d, e, l], ?_, ExpandsTo.high s a b c d e l hl hl9⟩
      have h5 : ¬ l < 5 := UInt8.not_lt.2 hl
      have h9 : ¬ l > 9 := UInt8.not_lt.2 hl9
      simp only [List.cons_append, List.nil_append, fromUpcA]
      rcases hs' with rfl | rfl <;> simp [he, h5, h9]

/-- C67, the hypotheses are met also by a number whose UPC-E form is not the one given: 0-10000-00045 can be written with
last digit 3 (0-100453) but is printed as 0-100450. -/
example : ExpandsTo [0, 1, 0, 0, 4, 5, 3] [0, 1, 0, 0, 0, 0, 0, 0, 0, 4, 5] ∧
    upceNew (asciiDigits [0, 1, 0, 0, 0, 0, 0, 0, 0, 4, 5, 7]) = .ok (.ok [0, 1, 0, 0, 4, 5, 0, 7]) :=
  ⟨ExpandsTo.three 0 1 0 0 4 5, by decide +kernel⟩

end Thermal
