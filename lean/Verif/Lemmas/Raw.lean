import Verif.Spec.Wire

namespace Ublox
open Spec

theorem or_shift (a b k : Nat) (h : a < 2 ^ k) : a ||| (b <<< k) = a + 2 ^ k * b := by
  rw [Nat.or_comm, ← Nat.shiftLeft_add_eq_or_of_lt h, Nat.shiftLeft_eq]
  rw [Nat.mul_comm, Nat.add_comm]

theorem u8_lt (b : UInt8) : b.toNat < 256 := b.toNat_lt

theorem u16FromLe_toNat (a b : UInt8) : (u16FromLe a b).toNat = a.toNat + 256 * b.toNat := by
  have ha := u8_lt a; have hb := u8_lt b
  unfold u16FromLe
  rw [UInt16.toNat_or, UInt16.toNat_shiftLeft]
  simp only [UInt8.toNat_toUInt16]
  have : (8 : UInt16).toNat % 16 = 8 := rfl
  rw [this, Nat.mod_eq_of_lt (by rw [Nat.shiftLeft_eq]; omega), or_shift _ _ _ (by simpa using ha)]

theorem u32FromLe_toNat (a b c d : UInt8) :
    (u32FromLe a b c d).toNat =
      a.toNat + 256 * (b.toNat + 256 * (c.toNat + 256 * d.toNat)) := by
  have ha := u8_lt a; have hb := u8_lt b; have hc := u8_lt c; have hd := u8_lt d
  unfold u32FromLe
  rw [UInt32.toNat_or, UInt32.toNat_or, UInt32.toNat_or, UInt32.toNat_shiftLeft,
    UInt32.toNat_shiftLeft, UInt32.toNat_shiftLeft]
  simp only [UInt8.toNat_toUInt32]
  have h1 : (8 : UInt32).toNat % 32 = 8 := rfl
  have h2 : (16 : UInt32).toNat % 32 = 16 := rfl
  have h3 : (24 : UInt32).toNat % 32 = 24 := rfl
  rw [h1, h2, h3, Nat.mod_eq_of_lt (by rw [Nat.shiftLeft_eq]; omega),
    Nat.mod_eq_of_lt (by rw [Nat.shiftLeft_eq]; omega),
    Nat.mod_eq_of_lt (by rw [Nat.shiftLeft_eq]; omega), or_shift a.toNat b.toNat 8 (by omega),
    or_shift _ c.toNat 16 (by omega), or_shift _ d.toNat 24 (by omega)]
  omega

theorem u64FromLe_toNat (a b c d e f g h : UInt8) :
    (u64FromLe a b c d e f g h).toNat =
      a.toNat + 256 * (b.toNat + 256 * (c.toNat + 256 * (d.toNat + 256 * (e.toNat +
        256 * (f.toNat + 256 * (g.toNat + 256 * h.toNat)))))) := by
  have ha := u8_lt a; have hb := u8_lt b; have hc := u8_lt c; have hd := u8_lt d
  have he := u8_lt e; have hf := u8_lt f; have hg := u8_lt g; have hh := u8_lt h
  unfold u64FromLe
  simp only [UInt64.toNat_or, UInt64.toNat_shiftLeft, UInt8.toNat_toUInt64]
  have h1 : (8 : UInt64).toNat % 64 = 8 := rfl
  have h2 : (16 : UInt64).toNat % 64 = 16 := rfl
  have h3 : (24 : UInt64).toNat % 64 = 24 := rfl
  have h4 : (32 : UInt64).toNat % 64 = 32 := rfl
  have h5 : (40 : UInt64).toNat % 64 = 40 := rfl
  have h6 : (48 : UInt64).toNat % 64 = 48 := rfl
  have h7 : (56 : UInt64).toNat % 64 = 56 := rfl
  rw [h1, h2, h3, h4, h5, h6, h7]
  rw [Nat.mod_eq_of_lt (a := b.toNat <<< 8) (by rw [Nat.shiftLeft_eq]; omega),
    Nat.mod_eq_of_lt (a := c.toNat <<< 16) (by rw [Nat.shiftLeft_eq]; omega),
    Nat.mod_eq_of_lt (a := d.toNat <<< 24) (by rw [Nat.shiftLeft_eq]; omega),
    Nat.mod_eq_of_lt (a := e.toNat <<< 32) (by rw [Nat.shiftLeft_eq]; omega),
    Nat.mod_eq_of_lt (a := f.toNat <<< 40) (by rw [Nat.shiftLeft_eq]; omega),
    Nat.mod_eq_of_lt (a := g.toNat <<< 48) (by rw [Nat.shiftLeft_eq]; omega),
    Nat.mod_eq_of_lt (a := h.toNat <<< 56) (by rw [Nat.shiftLeft_eq]; omega)]
  rw [or_shift a.toNat b.toNat 8 (by omega), or_shift _ c.toNat 16 (by omega),
    or_shift _ d.toNat 24 (by omega), or_shift _ e.toNat 32 (by omega),
    or_shift _ f.toNat 40 (by omega), or_shift _ g.toNat 48 (by omega),
    or_shift _ h.toNat 56 (by omega)]
  omega

theorem u16ToLe_eq (v : UInt16) : u16ToLe v = natLe 2 v.toNat := by
  have hv := v.toNat_lt
  simp only [u16ToLe, natLe]
  have e1 : v.toUInt8 = UInt8.ofNat (v.toNat % 256) := by
    apply UInt8.toNat.inj; simp
  have e2 : (v >>> 8).toUInt8 = UInt8.ofNat (v.toNat / 256 % 256) := by
    apply UInt8.toNat.inj; simp [Nat.shiftRight_eq_div_pow]
  rw [e1, e2]

theorem u32ToLe_eq (v : UInt32) : u32ToLe v = natLe 4 v.toNat := by
  simp only [u32ToLe, natLe]
  refine List.cons_eq_cons.mpr ⟨?_, List.cons_eq_cons.mpr ⟨?_, List.cons_eq_cons.mpr ⟨?_,
    List.cons_eq_cons.mpr ⟨?_, rfl⟩⟩⟩⟩
  all_goals (apply UInt8.toNat.inj; simp [Nat.shiftRight_eq_div_pow]; try omega)

theorem u64ToLe_eq (v : UInt64) : u64ToLe v = natLe 8 v.toNat := by
  simp only [u64ToLe, natLe]
  refine List.cons_eq_cons.mpr ⟨?_, List.cons_eq_cons.mpr ⟨?_, List.cons_eq_cons.mpr ⟨?_,
    List.cons_eq_cons.mpr ⟨?_, List.cons_eq_cons.mpr ⟨?_, List.cons_eq_cons.mpr ⟨?_,
    List.cons_eq_cons.mpr ⟨?_, List.cons_eq_cons.mpr ⟨?_, rfl⟩⟩⟩⟩⟩⟩⟩⟩
  all_goals (apply UInt8.toNat.inj; simp [Nat.shiftRight_eq_div_pow]; try omega)

theorem natLe_length (n x : Nat) : (natLe n x).length = n := by
  induction n generalizing x with
  | zero => rfl
  | succ n ih => simp [natLe, ih]

theorem leNat_natLe (n x : Nat) : leNat (natLe n x) = x % 256 ^ n := by
  induction n generalizing x with
  | zero => simp [natLe, leNat, Nat.mod_one]
  | succ n ih =>
    simp only [natLe, leNat, ih]
    have e : (UInt8.ofNat (x % 256)).toNat = x % 256 := by rw [UInt8.toNat_ofNat']; omega
    rw [e, Nat.pow_succ', Nat.mod_mul]

theorem natLe_leNat (bs : Bytes) : natLe bs.length (leNat bs) = bs := by
  induction bs with
  | nil => rfl
  | cons b bs ih =>
    have hb := u8_lt b
    simp only [List.length_cons, natLe, leNat]
    have h1 : (b.toNat + 256 * leNat bs) % 256 = b.toNat := by omega
    have h2 : (b.toNat + 256 * leNat bs) / 256 = leNat bs := by omega
    rw [h1, h2, ih]; simp

theorem leNat_lt (bs : Bytes) : leNat bs < 256 ^ bs.length := by
  induction bs with
  | nil => simp [leNat]
  | cons b bs ih =>
    have hb := u8_lt b
    simp only [leNat, List.length_cons, Nat.pow_succ']; omega

/-- Two byte strings of the same length that denote the same number are equal. -/
theorem leNat_inj {a b : Bytes} (hl : a.length = b.length) (h : leNat a = leNat b) : a = b := by
  rw [← natLe_leNat a, ← natLe_leNat b, hl, h]

theorem leNat2 (a b : UInt8) : leNat [a, b] = a.toNat + 256 * b.toNat := by simp [leNat]

theorem leNat4 (a b c d : UInt8) :
    leNat [a, b, c, d] = a.toNat + 256 * (b.toNat + 256 * (c.toNat + 256 * d.toNat)) := by
  simp [leNat]

theorem leNat8 (a b c d e f g h : UInt8) :
    leNat [a, b, c, d, e, f, g, h] = a.toNat + 256 * (b.toNat + 256 * (c.toNat + 256 * (d.toNat +
      256 * (e.toNat + 256 * (f.toNat + 256 * (g.toNat + 256 * h.toNat)))))) := by
  simp [leNat]

theorem u16FromLe_natLe (v : UInt16) (a b : UInt8) (h : [a, b] = u16ToLe v) : u16FromLe a b = v := by
  apply UInt16.toNat.inj
  rw [u16FromLe_toNat, ← leNat2, h, u16ToLe_eq, leNat_natLe, Nat.mod_eq_of_lt v.toNat_lt]

theorem u32FromLe_natLe (v : UInt32) (a b c d : UInt8) (h : [a, b, c, d] = u32ToLe v) :
    u32FromLe a b c d = v := by
  apply UInt32.toNat.inj
  rw [u32FromLe_toNat, ← leNat4, h, u32ToLe_eq, leNat_natLe, Nat.mod_eq_of_lt v.toNat_lt]

theorem u64FromLe_natLe (v : UInt64) (a b c d e f g k : UInt8)
    (h : [a, b, c, d, e, f, g, k] = u64ToLe v) : u64FromLe a b c d e f g k = v := by
  apply UInt64.toNat.inj
  rw [u64FromLe_toNat, ← leNat8, h, u64ToLe_eq, leNat_natLe, Nat.mod_eq_of_lt v.toNat_lt]

theorem u16ToLe_fromLe (a b : UInt8) : u16ToLe (u16FromLe a b) = [a, b] := by
  rw [u16ToLe_eq, u16FromLe_toNat, ← leNat2]; exact natLe_leNat [a, b]

theorem u32ToLe_fromLe (a b c d : UInt8) : u32ToLe (u32FromLe a b c d) = [a, b, c, d] := by
  rw [u32ToLe_eq, u32FromLe_toNat, ← leNat4]; exact natLe_leNat [a, b, c, d]

theorem u64ToLe_fromLe (a b c d e f g h : UInt8) :
    u64ToLe (u64FromLe a b c d e f g h) = [a, b, c, d, e, f, g, h] := by
  rw [u64ToLe_eq, u64FromLe_toNat, ← leNat8]; exact natLe_leNat [a, b, c, d, e, f, g, h]

theorem u16ToLe_length (v : UInt16) : (u16ToLe v).length = 2 := rfl
theorem u32ToLe_length (v : UInt32) : (u32ToLe v).length = 4 := rfl
theorem u64ToLe_length (v : UInt64) : (u64ToLe v).length = 8 := rfl

/-! ### Raw values -/

theorem RawTy.fromLeBytes_toLeBytes {ty : RawTy} {bs : Bytes} {r : RawVal}
    (h : ty.fromLeBytes bs = .ok r) : r.toLeBytes = bs := by
  unfold RawTy.fromLeBytes at h
  split at h <;>
    simp_all only [Except.ok.injEq, reduceCtorEq] <;> subst h <;>
    simp [RawVal.toLeBytes, u16ToLe_fromLe, u32ToLe_fromLe, u64ToLe_fromLe]

theorem RawTy.fromLeBytes_ofTy {ty : RawTy} {bs : Bytes} {r : RawVal}
    (h : ty.fromLeBytes bs = .ok r) : r.ofTy ty = true := by
  unfold RawTy.fromLeBytes at h
  split at h <;>
    simp_all only [Except.ok.injEq, reduceCtorEq] <;> subst h <;> rfl

/-- The number of bytes of a value. -/
theorem RawVal.toLeBytes_length {r : RawVal} {ty : RawTy} (h : r.ofTy ty = true) :
    ty.size = some r.toLeBytes.length := by
  unfold RawVal.ofTy at h
  split at h <;> simp_all [RawTy.size, RawVal.toLeBytes, u16ToLe, u32ToLe, u64ToLe]

/-- Decoding the bytes of a value that is not a byte array. -/
theorem RawVal.fromLeBytes_of {r : RawVal} {ty : RawTy} (h : r.ofTy ty = true)
    (hb : ∀ n, ty ≠ .bytes n) : ty.fromLeBytes r.toLeBytes = .ok r := by
  unfold RawVal.ofTy at h
  split at h <;> try (simp at h; done)
  case h_9 => exact absurd rfl (hb _)
  case h_1 => rfl
  case h_2 v => simp [RawVal.toLeBytes, RawTy.fromLeBytes]
  case h_3 v => simp only [RawVal.toLeBytes, u16ToLe, RawTy.fromLeBytes]; rw [u16FromLe_natLe v _ _ rfl]
  case h_4 v =>
    simp only [RawVal.toLeBytes, u16ToLe, RawTy.fromLeBytes]
    rw [u16FromLe_natLe v.toUInt16 _ _ rfl]; simp
  case h_5 v =>
    simp only [RawVal.toLeBytes, u32ToLe, RawTy.fromLeBytes]; rw [u32FromLe_natLe v _ _ _ _ rfl]
  case h_6 v =>
    simp only [RawVal.toLeBytes, u32ToLe, RawTy.fromLeBytes]
    rw [u32FromLe_natLe v.toUInt32 _ _ _ _ rfl]; simp
  case h_7 v =>
    simp only [RawVal.toLeBytes, u32ToLe, RawTy.fromLeBytes]; rw [u32FromLe_natLe v _ _ _ _ rfl]
  case h_8 v =>
    simp only [RawVal.toLeBytes, u64ToLe, RawTy.fromLeBytes]
    rw [u64FromLe_natLe v _ _ _ _ _ _ _ _ rfl]

/-- `from_le_bytes` never fails on an array of the right length. -/
theorem RawTy.fromLeBytes_total {ty : RawTy} {bs : Bytes} (hs : ty.size = some bs.length)
    (hb : ∀ n, ty ≠ .bytes n) : ∃ r, ty.fromLeBytes bs = .ok r := by
  cases ty with
  | bytes n => exact absurd rfl (hb n)
  | tail => simp [RawTy.size] at hs
  | u8 | i8 =>
    simp only [RawTy.size, Option.some.injEq] at hs
    match bs, hs with
    | [a], _ => exact ⟨_, rfl⟩
  | u16 | i16 =>
    simp only [RawTy.size, Option.some.injEq] at hs
    match bs, hs with
    | [a, b], _ => exact ⟨_, rfl⟩
  | u32 | i32 | f32 =>
    simp only [RawTy.size, Option.some.injEq] at hs
    match bs, hs with
    | [a, b, c, d], _ => exact ⟨_, rfl⟩
  | f64 =>
    simp only [RawTy.size, Option.some.injEq] at hs
    match bs, hs with
    | [a, b, c, d, e, f, g, h], _ => exact ⟨_, rfl⟩

/-! ### Against the specification -/

theorem signedOf_i8 (v : Int8) : v.toInt = signedOf 8 v.toUInt8.toNat := by
  have hu := v.toUInt8.toNat_lt
  have e : v.toBitVec.toNat = v.toUInt8.toNat := rfl
  simp only [signedOf]
  rw [Int8.toInt, BitVec.toInt_eq_toNat_cond, e]
  split <;> split <;> omega

theorem signedOf_i16 (v : Int16) : v.toInt = signedOf 16 v.toUInt16.toNat := by
  have hu := v.toUInt16.toNat_lt
  have e : v.toBitVec.toNat = v.toUInt16.toNat := rfl
  simp only [signedOf]
  rw [Int16.toInt, BitVec.toInt_eq_toNat_cond, e]
  split <;> split <;> omega

theorem signedOf_i32 (v : Int32) : v.toInt = signedOf 32 v.toUInt32.toNat := by
  have hu := v.toUInt32.toNat_lt
  have e : v.toBitVec.toNat = v.toUInt32.toNat := rfl
  simp only [signedOf]
  rw [Int32.toInt, BitVec.toInt_eq_toNat_cond, e]
  split <;> split <;> omega

theorem RawVal.denotes_toLeBytes (r : RawVal) : Denotes r r.toLeBytes := by
  cases r with
  | u8 v => simp [Denotes, RawVal.toLeBytes, leNat]
  | i8 v => simp [Denotes, RawVal.toLeBytes, leNat, signedOf_i8]
  | u16 v =>
    simp only [Denotes, RawVal.toLeBytes, u16ToLe_length, true_and]
    rw [u16ToLe_eq, leNat_natLe, Nat.mod_eq_of_lt v.toNat_lt]
  | i16 v =>
    simp only [Denotes, RawVal.toLeBytes, u16ToLe_length, true_and]
    rw [u16ToLe_eq, leNat_natLe, Nat.mod_eq_of_lt v.toUInt16.toNat_lt, signedOf_i16]
  | u32 v =>
    simp only [Denotes, RawVal.toLeBytes, u32ToLe_length, true_and]
    rw [u32ToLe_eq, leNat_natLe, Nat.mod_eq_of_lt v.toNat_lt]
  | i32 v =>
    simp only [Denotes, RawVal.toLeBytes, u32ToLe_length, true_and]
    rw [u32ToLe_eq, leNat_natLe, Nat.mod_eq_of_lt v.toUInt32.toNat_lt, signedOf_i32]
  | f32 v =>
    simp only [Denotes, RawVal.toLeBytes, u32ToLe_length, true_and]
    rw [u32ToLe_eq, leNat_natLe, Nat.mod_eq_of_lt v.toNat_lt]
  | f64 v =>
    simp only [Denotes, RawVal.toLeBytes, u64ToLe_length, true_and]
    rw [u64ToLe_eq, leNat_natLe, Nat.mod_eq_of_lt v.toNat_lt]
  | bytes bs => simp [Denotes, RawVal.toLeBytes]

theorem signedOf_inj {n a b : Nat} (ha : a < 2 ^ n) (hb : b < 2 ^ n)
    (h : signedOf n a = signedOf n b) : a = b := by
  unfold signedOf at h
  have e : ((2 : Int) ^ n) = ((2 ^ n : Nat) : Int) := by simp
  rw [e] at h
  split at h <;> split at h <;> omega

/-- A value is denoted by one byte string only. -/
theorem Spec.Denotes.bytes_unique {r : RawVal} {bs : Bytes} (h : Denotes r bs) :
    bs = r.toLeBytes := by
  have h' := RawVal.denotes_toLeBytes r
  have l' := leNat_lt r.toLeBytes
  cases r with
  | bytes b => exact h
  | u8 v | u16 v | u32 v | f32 v | f64 v => exact leNat_inj (h.1.trans h'.1.symm) (h.2.symm.trans h'.2)
  | i8 v | i16 v | i32 v =>
    have l := leNat_lt bs
    rw [h.1] at l
    rw [h'.1] at l'
    exact leNat_inj (h.1.trans h'.1.symm) (signedOf_inj l l' (h.2.symm.trans h'.2))

end Ublox
