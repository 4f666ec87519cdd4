import Verif.Model.Types

/-! # `utf8Valid` accepts exactly the encodings of sequences of Unicode scalar values -/

namespace Ublox

theorem cont_iff (lo hi b : UInt8) :
    utf8Valid.cont lo hi b = true ↔ lo.toNat ≤ b.toNat ∧ b.toNat ≤ hi.toNat := by
  simp [utf8Valid.cont, UInt8.le_iff_toNat_le]

theorem u8_ofNat_toNat {n : Nat} (h : n < 256) : (UInt8.ofNat n).toNat = n := by
  simp; omega

/-- One encoded character is skipped. -/
theorem utf8Valid_encode (c : Char) (rest : Bytes) :
    utf8Valid (String.utf8EncodeChar c ++ rest) = utf8Valid rest := by
  have hv := c.valid
  simp only [UInt32.isValidChar, Nat.isValidChar] at hv
  unfold String.utf8EncodeChar
  generalize c.val.toNat = v at hv
  simp only
  split
  · rename_i h
    simp only [List.cons_append, List.nil_append]
    rw [utf8Valid.eq_def]
    simp only
    rw [if_pos]
    rw [UInt8.lt_iff_toNat_lt, u8_ofNat_toNat (by omega)]
    show v < 128
    omega
  · split
    · simp only [List.cons_append, List.nil_append]
      rw [utf8Valid.eq_def]
      simp only
      rw [if_neg, if_pos]
      · rw [show utf8Valid.cont 0x80 0xBF (UInt8.ofNat (v % 64 + 128)) = true from
          (cont_iff _ _ _).mpr (by
            rw [u8_ofNat_toNat (by omega)]
            show 128 ≤ _ ∧ _ ≤ 191
            omega)]
        rfl
      · rw [UInt8.le_iff_toNat_le, UInt8.le_iff_toNat_le, u8_ofNat_toNat (by omega)]
        show 194 ≤ _ ∧ _ ≤ 223
        omega
      · rw [UInt8.lt_iff_toNat_lt, u8_ofNat_toNat (by omega)]
        show ¬ _ < 128
        omega
    · split
      · simp only [List.cons_append, List.nil_append]
        rw [utf8Valid.eq_def]
        simp only
        rw [if_neg, if_neg, if_pos]
        · rw [show utf8Valid.cont 0x80 0xBF (UInt8.ofNat (v % 64 + 128)) = true from
            (cont_iff _ _ _).mpr (by
              rw [u8_ofNat_toNat (by omega)]
              show 128 ≤ _ ∧ _ ≤ 191
              omega)]
          rw [(cont_iff _ _ _).mpr]
          · rfl
          · rw [u8_ofNat_toNat (by omega)]
            simp only [← UInt8.toNat_inj]
            rw [u8_ofNat_toNat (by omega)]
            have h1 : (0xE0 : UInt8).toNat = 224 := rfl
            have h2 : (0xED : UInt8).toNat = 237 := rfl
            rw [h1, h2]
            constructor
            · split
              · show 160 ≤ _; omega
              · show 128 ≤ _; omega
            · split
              · show _ ≤ 159; omega
              · show _ ≤ 191; omega
        · rw [UInt8.le_iff_toNat_le, UInt8.le_iff_toNat_le, u8_ofNat_toNat (by omega)]
          show 224 ≤ _ ∧ _ ≤ 239
          omega
        · rw [UInt8.le_iff_toNat_le, UInt8.le_iff_toNat_le, u8_ofNat_toNat (by omega)]
          show ¬ (194 ≤ _ ∧ _ ≤ 223)
          omega
        · rw [UInt8.lt_iff_toNat_lt, u8_ofNat_toNat (by omega)]
          show ¬ _ < 128
          omega
      · simp only [List.cons_append, List.nil_append]
        rw [utf8Valid.eq_def]
        simp only
        rw [if_neg, if_neg, if_neg, if_pos]
        · rw [show utf8Valid.cont 0x80 0xBF (UInt8.ofNat (v % 64 + 128)) = true from
            (cont_iff _ _ _).mpr (by
              rw [u8_ofNat_toNat (by omega)]
              show 128 ≤ _ ∧ _ ≤ 191
              omega)]
          rw [show utf8Valid.cont 0x80 0xBF (UInt8.ofNat (v / 64 % 64 + 128)) = true from
            (cont_iff _ _ _).mpr (by
              rw [u8_ofNat_toNat (by omega)]
              show 128 ≤ _ ∧ _ ≤ 191
              omega)]
          rw [(cont_iff _ _ _).mpr]
          · rfl
          · rw [u8_ofNat_toNat (by omega)]
            simp only [← UInt8.toNat_inj]
            rw [u8_ofNat_toNat (by omega)]
            have h1 : (0xF0 : UInt8).toNat = 240 := rfl
            have h2 : (0xF4 : UInt8).toNat = 244 := rfl
            rw [h1, h2]
            constructor
            · split
              · show 144 ≤ _; omega
              · show 128 ≤ _; omega
            · split
              · show _ ≤ 143; omega
              · show _ ≤ 191; omega
        · rw [UInt8.le_iff_toNat_le, UInt8.le_iff_toNat_le, u8_ofNat_toNat (by omega)]
          show 240 ≤ _ ∧ _ ≤ 244
          omega
        · rw [UInt8.le_iff_toNat_le, UInt8.le_iff_toNat_le, u8_ofNat_toNat (by omega)]
          show ¬ (224 ≤ _ ∧ _ ≤ 239)
          omega
        · rw [UInt8.le_iff_toNat_le, UInt8.le_iff_toNat_le, u8_ofNat_toNat (by omega)]
          show ¬ (194 ≤ _ ∧ _ ≤ 223)
          omega
        · rw [UInt8.lt_iff_toNat_lt, u8_ofNat_toNat (by omega)]
          show ¬ _ < 128
          omega

/-- The character with a given code. -/
theorem char_of (v : Nat) (h : v.isValidChar) : ∃ c : Char, c.val.toNat = v := by
  refine ⟨Char.ofNatAux v h, rfl⟩

theorem u8_eq_ofNat {b : UInt8} {n : Nat} (h : b.toNat = n) : b = UInt8.ofNat n := by
  rw [← h]; simp

/-- A valid non-empty string starts with an encoded character. -/
theorem utf8Valid_cons {b : UInt8} {bs : Bytes} (h : utf8Valid (b :: bs) = true) :
    ∃ c rest, b :: bs = String.utf8EncodeChar c ++ rest ∧ utf8Valid rest = true := by
  rw [utf8Valid.eq_def] at h
  simp only at h
  have hb := b.toNat_lt
  split at h
  · rename_i h0
    rw [UInt8.lt_iff_toNat_lt] at h0
    replace h0 : b.toNat < 128 := h0
    obtain ⟨c, hc⟩ := char_of b.toNat (by simp only [Nat.isValidChar]; omega)
    refine ⟨c, bs, ?_, h⟩
    unfold String.utf8EncodeChar
    rw [hc, if_pos (by omega)]
    simp
  · rename_i h0
    rw [UInt8.lt_iff_toNat_lt] at h0
    replace h0 : ¬ b.toNat < 128 := h0
    split at h
    · rename_i h1
      rw [UInt8.le_iff_toNat_le, UInt8.le_iff_toNat_le] at h1
      replace h1 : 194 ≤ b.toNat ∧ b.toNat ≤ 223 := h1
      split at h
      · rename_i b1 rest
        simp only [Bool.and_eq_true, cont_iff] at h
        obtain ⟨⟨h2, h3⟩, h4⟩ := h
        replace h2 : 128 ≤ b1.toNat := h2
        replace h3 : b1.toNat ≤ 191 := h3
        obtain ⟨c, hc⟩ := char_of ((b.toNat - 192) * 64 + (b1.toNat - 128))
          (by simp only [Nat.isValidChar]; omega)
        refine ⟨c, rest, ?_, h4⟩
        unfold String.utf8EncodeChar
        rw [hc, if_neg (by omega), if_pos (by omega)]
        simp only [List.cons_append, List.nil_append, List.cons.injEq, and_true]
        exact ⟨u8_eq_ofNat (by omega), u8_eq_ofNat (by omega)⟩
      · cases h
    · rename_i h1
      rw [UInt8.le_iff_toNat_le, UInt8.le_iff_toNat_le] at h1
      replace h1 : ¬ (194 ≤ b.toNat ∧ b.toNat ≤ 223) := h1
      split at h
      · rename_i h2
        rw [UInt8.le_iff_toNat_le, UInt8.le_iff_toNat_le] at h2
        replace h2 : 224 ≤ b.toNat ∧ b.toNat ≤ 239 := h2
        split at h
        · rename_i b1 b2 rest
          simp only [Bool.and_eq_true, cont_iff, ← UInt8.toNat_inj] at h
          have e1 : (0xE0 : UInt8).toNat = 224 := rfl
          have e2 : (0xED : UInt8).toNat = 237 := rfl
          rw [e1, e2] at h
          obtain ⟨⟨⟨h3, h4⟩, h5, h6⟩, h7⟩ := h
          replace h5 : 128 ≤ b2.toNat := h5
          replace h6 : b2.toNat ≤ 191 := h6
          have h3' : (b.toNat = 224 → 160 ≤ b1.toNat) ∧ 128 ≤ b1.toNat := by
            split at h3
            · replace h3 : 160 ≤ b1.toNat := h3; omega
            · replace h3 : 128 ≤ b1.toNat := h3; omega
          have h4' : (b.toNat = 237 → b1.toNat ≤ 159) ∧ b1.toNat ≤ 191 := by
            split at h4
            · replace h4 : b1.toNat ≤ 159 := h4; omega
            · replace h4 : b1.toNat ≤ 191 := h4; omega
          obtain ⟨c, hc⟩ := char_of
            ((b.toNat - 224) * 4096 + (b1.toNat - 128) * 64 + (b2.toNat - 128))
            (by simp only [Nat.isValidChar]; omega)
          refine ⟨c, rest, ?_, h7⟩
          unfold String.utf8EncodeChar
          rw [hc, if_neg (by omega), if_neg (by omega), if_pos (by omega)]
          simp only [List.cons_append, List.nil_append, List.cons.injEq, and_true]
          exact ⟨u8_eq_ofNat (by omega), u8_eq_ofNat (by omega), u8_eq_ofNat (by omega)⟩
        · cases h
      · rename_i h2
        rw [UInt8.le_iff_toNat_le, UInt8.le_iff_toNat_le] at h2
        replace h2 : ¬ (224 ≤ b.toNat ∧ b.toNat ≤ 239) := h2
        split at h
        · rename_i h3
          rw [UInt8.le_iff_toNat_le, UInt8.le_iff_toNat_le] at h3
          replace h3 : 240 ≤ b.toNat ∧ b.toNat ≤ 244 := h3
          split at h
          · rename_i b1 b2 b3 rest
            simp only [Bool.and_eq_true, cont_iff, ← UInt8.toNat_inj] at h
            have e1 : (0xF0 : UInt8).toNat = 240 := rfl
            have e2 : (0xF4 : UInt8).toNat = 244 := rfl
            rw [e1, e2] at h
            obtain ⟨⟨⟨⟨h4, h5⟩, h6, h7⟩, h8, h9⟩, h10⟩ := h
            replace h6 : 128 ≤ b2.toNat := h6
            replace h7 : b2.toNat ≤ 191 := h7
            replace h8 : 128 ≤ b3.toNat := h8
            replace h9 : b3.toNat ≤ 191 := h9
            have h4' : (b.toNat = 240 → 144 ≤ b1.toNat) ∧ 128 ≤ b1.toNat := by
              split at h4
              · replace h4 : 144 ≤ b1.toNat := h4; omega
              · replace h4 : 128 ≤ b1.toNat := h4; omega
            have h5' : (b.toNat = 244 → b1.toNat ≤ 143) ∧ b1.toNat ≤ 191 := by
              split at h5
              · replace h5 : b1.toNat ≤ 143 := h5; omega
              · replace h5 : b1.toNat ≤ 191 := h5; omega
            obtain ⟨c, hc⟩ := char_of ((b.toNat - 240) * 262144 + (b1.toNat - 128) * 4096
                + (b2.toNat - 128) * 64 + (b3.toNat - 128))
              (by simp only [Nat.isValidChar]; omega)
            refine ⟨c, rest, ?_, h10⟩
            unfold String.utf8EncodeChar
            rw [hc, if_neg (by omega), if_neg (by omega), if_neg (by omega)]
            simp only [List.cons_append, List.nil_append, List.cons.injEq, and_true]
            exact ⟨u8_eq_ofNat (by omega), u8_eq_ofNat (by omega), u8_eq_ofNat (by omega),
              u8_eq_ofNat (by omega)⟩
          · cases h
        · cases h

theorem utf8Valid_iff (bs : Bytes) :
    utf8Valid bs = true ↔ ∃ cs : List Char, bs = cs.flatMap String.utf8EncodeChar := by
  constructor
  · intro h
    generalize hn : bs.length = n
    induction n using Nat.strongRecOn generalizing bs with
    | ind n ih =>
      cases bs with
      | nil => exact ⟨[], rfl⟩
      | cons b bs =>
        obtain ⟨c, rest, e, hr⟩ := utf8Valid_cons h
        have hne := @String.utf8EncodeChar_ne_nil c
        have hl := List.length_pos_iff.mpr hne
        have el := congrArg List.length e
        rw [List.length_append] at el
        obtain ⟨cs, hcs⟩ := ih rest.length (by omega) rest hr rfl
        exact ⟨c :: cs, by rw [e, hcs]; rfl⟩
  · rintro ⟨cs, rfl⟩
    induction cs with
    | nil => rfl
    | cons c cs ih => rw [List.flatMap_cons, utf8Valid_encode]; exact ih

end Ublox
