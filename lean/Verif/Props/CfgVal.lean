import Verif.Lemmas.CfgVal

/-! # C35, C36, C37: configuration values -/

namespace Ublox.Props
open Ublox Spec

/-- C35, writing: `extend_to` appends the key-value pair of the value, `write_to` puts the same
bytes at the start of the buffer and leaves the rest alone (it panics exactly if they do not fit),
and both return `len()`, the number of these bytes. -/
theorem c35_write {v : CfgVal} (h : IsCfgVal Gen.cfgItems v) (buf : Bytes) :
    v.extendTo buf = .ok (buf ++ cfgKv v, v.len) ∧
    (v.len ≤ buf.length → v.writeTo buf = .ok (cfgKv v ++ buf.drop v.len, v.len)) ∧
    (buf.length < v.len → v.writeTo buf = .error .slice) ∧
    v.len = (cfgKv v).length ∧ v.isEmpty = false := by
  have hl := CfgVal.len_eq h
  refine ⟨?_, ?_, ?_, hl, ?_⟩
  · rw [CfgVal.extendTo_eq h, hl]
  · intro hb; rw [CfgVal.writeTo_eq h, ← hl, if_pos hb]
  · intro hb; rw [CfgVal.writeTo_eq h, ← hl, if_neg (by omega)]
  · have := cfgKv_length v
    simp only [CfgVal.isEmpty, beq_eq_false_iff_ne, ne_eq]
    omega

/-- C35, reading: `parse` gives back the value from its bytes, whatever follows them. -/
theorem c35_parse {v : CfgVal} (h : IsCfgVal Gen.cfgItems v) (rest : Bytes) :
    CfgVal.parse Gen.cfgItems (cfgKv v ++ rest) = .ok v := CfgVal.parse_eq h rest

/-- C35, converse: whatever `parse` returns is a value of the enum and its bytes are a prefix of
the input; on every other input `parse` panics. -/
theorem c35_parse_iff (buf : Bytes) (v : CfgVal) :
    CfgVal.parse Gen.cfgItems buf = .ok v ↔ IsCfgVal Gen.cfgItems v ∧ cfgKv v <+: buf :=
  ⟨CfgVal.parse_sound, fun ⟨h, rest, hr⟩ => hr ▸ CfgVal.parse_eq h rest⟩

/-- C35: two different configuration values never have the same bytes, and the bytes of one are
never a prefix of the bytes of another. -/
theorem c35_prefix_free {v w : CfgVal} (hv : IsCfgVal Gen.cfgItems v) (hw : IsCfgVal Gen.cfgItems w)
    (h : cfgKv v <+: cfgKv w) : v = w := by
  have h1 := (c35_parse_iff (cfgKv w) v).mpr ⟨hv, h⟩
  have h2 := (c35_parse_iff (cfgKv w) w).mpr ⟨hw, List.prefix_rfl⟩
  rw [h1] at h2
  injection h2

example : IsCfgVal Gen.cfgItems ⟨⟨"Uart1Baudrate", 0x40520001, .u32⟩, .u32 115200⟩ ∧
    cfgKv ⟨⟨"Uart1Baudrate", 0x40520001, .u32⟩, .u32 115200⟩
      = [0x01, 0x00, 0x52, 0x40, 0x00, 0xC2, 0x01, 0x00] := by decide +kernel
example : IsCfgVal Gen.cfgItems ⟨⟨"Uart1StopBits", 0x20520002, .stopBits⟩, .stopBits .two⟩ := by
  decide +kernel

/-- C36: no two rows of the table have the same key; the size bits of every key announce the
number of bytes in which values of the row's type are written; `SIZE` is that number plus 4. -/
theorem c36_keys :
    (Gen.cfgItems.map (·.key)).Nodup ∧
    ∀ i ∈ Gen.cfgItems, keyWidth i.key.toNat = some (cfgWidth i.ty) ∧ i.size = 4 + cfgWidth i.ty := by
  refine ⟨?_, fun i hi => ⟨(cfgKeys_width i hi).2, (cfgKeys_width i hi).1⟩⟩
  · have := cfgKeys_nodup
    rw [show Gen.cfgItems.map (·.key.toNat) = (Gen.cfgItems.map (·.key)).map UInt32.toNat by simp]
      at this
    exact nodup_of_map UInt32.toNat this

/-- C36: `group_id` and `item_id` read bits 16..23 and 0..7 of the key. -/
theorem c36_key_parts (key : UInt32) :
    (KeyId.groupId key).toNat = key.toNat / 2 ^ 16 % 2 ^ 8 ∧
    (KeyId.itemId key).toNat = key.toNat % 2 ^ 8 := by
  constructor
  · simp [KeyId.groupId, Nat.shiftRight_eq_div_pow]
  · simp [KeyId.itemId]

/-- C36: `value_size` tells the storage of the value that the key has in bits 28 to 30. -/
theorem c36_value_size (key : UInt32) :
    (key.toNat / 2 ^ 28 % 8 = 1 → KeyId.valueSize key = .oneBit) ∧
    (key.toNat / 2 ^ 28 % 8 = 2 → KeyId.valueSize key = .oneByte) ∧
    (key.toNat / 2 ^ 28 % 8 = 3 → KeyId.valueSize key = .twoBytes) ∧
    (key.toNat / 2 ^ 28 % 8 = 4 → KeyId.valueSize key = .fourBytes) ∧
    (key.toNat / 2 ^ 28 % 8 = 5 → KeyId.valueSize key = .eightBytes) := by
  have h : ((key >>> 28) &&& 0b111).toNat = key.toNat / 2 ^ 28 % 8 := by
    rw [UInt32.toNat_and, UInt32.toNat_shiftRight]
    simp only [UInt32.reduceToNat, Nat.reduceMod, Nat.shiftRight_eq_div_pow]
    exact Nat.and_two_pow_sub_one_eq_mod _ 3
  have h' : ∀ n : Nat, n < 8 → key.toNat / 2 ^ 28 % 8 = n → (key >>> 28) &&& 0b111 = UInt32.ofNat n := by
    intro n hn hk
    apply UInt32.toNat_inj.mp
    rw [h, hk, UInt32.toNat_ofNat_of_lt' (Nat.lt_trans hn (by decide))]
  refine ⟨fun hk => ?_, fun hk => ?_, fun hk => ?_, fun hk => ?_, fun hk => ?_⟩ <;>
    (unfold KeyId.valueSize; rw [h' _ (by decide) hk]; rfl)

/-- C36: exactly the values of one bit are the `bool`s. -/
theorem c36_one_bit : ∀ i ∈ Gen.cfgItems, KeyId.valueSize i.key = .oneBit ↔ i.ty = .bool := by
  decide +kernel

/-- C37: `CfgValIter::new` writes the values into the buffer, and iterating gives exactly the values
in order and then `None` for ever. -/
theorem c37_iter {M : Nat} (vs : List CfgVal) (h : ∀ v ∈ vs, IsCfgVal Gen.cfgItems v) (buf : Bytes)
    (hM : buf.length ≤ M) (hb : (cfgKvs vs).length ≤ buf.length) :
    ∃ it, CfgValIter.new M buf vs = .ok it ∧
      ∀ k, ∃ st, iterate (CfgValIter.next M Gen.cfgItems) (vs.length + k) it =
        .ok (vs.map some ++ List.replicate k none, st) := by
  refine ⟨⟨cfgKvs vs, 0⟩, CfgValIter.new_eq h buf hM hb, fun k => ?_⟩
  exact ⟨_, CfgValIter.iterate_eq h [] k (by simp; omega)⟩

/-- C37: a buffer that is too small makes `CfgValIter::new` panic. -/
theorem c37_too_small {M : Nat} (vs : List CfgVal) (h : ∀ v ∈ vs, IsCfgVal Gen.cfgItems v)
    (buf : Bytes) (hM : buf.length ≤ M) (hb : buf.length < (cfgKvs vs).length) :
    CfgValIter.new M buf vs = .error .slice := by
  unfold CfgValIter.new
  have := CfgValIter.writeAll_eq h [] buf (by simpa using hM)
  simp only [List.nil_append, List.length_nil] at this
  rw [this, if_neg (by omega)]
  rfl

example : ∃ vs : List CfgVal, vs.length = 2 ∧ (∀ v ∈ vs, IsCfgVal Gen.cfgItems v) ∧
    (cfgKvs vs).length = 14 :=
  ⟨[⟨⟨"Uart1Baudrate", 0x40520001, .u32⟩, .u32 115200⟩, ⟨⟨"RateMeas", 0x30210001, .u16⟩, .u16 100⟩],
    by decide +kernel⟩

end Ublox.Props
