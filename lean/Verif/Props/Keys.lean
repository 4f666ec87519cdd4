import Verif.Lemmas.Keys
import Verif.Props.CfgVal

/-! # Configuration items and the interface description (C66) -/

namespace Ublox.Props
open Spec Gen

/-- C66: every variant of `CfgVal` spells the name of exactly one item of the interface description,
and its key is the key of that item; every item of the list is spelled by a variant. -/
theorem c66_keys :
    (∀ i ∈ cfgItems, ∃ d ∈ descItems, Spells i.name d.name ∧ i.key.toNat = d.key ∧
      ∀ d' ∈ descItems, Spells i.name d'.name → d' = d) ∧
    (∀ d ∈ descItems, ∃ i ∈ cfgItems, Spells i.name d.name ∧ i.key.toNat = d.key) := by
  constructor
  · intro i hi
    obtain ⟨d, hz, hd⟩ := zip_fst_mem keys_length hi
    have := keys_rows _ hz
    exact ⟨d, hd, this.1, this.2.1, fun d' hd' h =>
      Item.eq_of_letters hd' hd (h.symm.trans this.1)⟩
  · intro d hd
    obtain ⟨i, hz, hi⟩ := zip_snd_mem keys_length hd
    have := keys_rows _ hz
    exact ⟨i, hi, this.1, this.2.1⟩

theorem row_of_name {i : CfgItem} {d : Item} (hi : i ∈ cfgItems) (hd : d ∈ descItems)
    (h : Spells i.name d.name) : i.key.toNat = d.key ∧ tyFits i.ty d.ty = true := by
  obtain ⟨d', hz, hd'⟩ := zip_fst_mem keys_length hi
  have := keys_rows _ hz
  have e := Item.eq_of_letters hd hd' (h.symm.trans this.1)
  subst e
  exact this.2

/-- C66, writing: for every value of the Rust enum `CfgVal` and the item of the description of the
same name, `extend_to` appends the key of that item and the encoding of the value that the
description gives for the type of the item. -/
theorem c66_writes {v : CfgVal} (hv : IsCfgVal cfgItems v) {d : Item} (hd : d ∈ descItems)
    (hn : Spells v.item.name d.name) :
    ∃ enc, itemBytes d.ty v.value = some enc ∧
      ∀ buf, v.extendTo buf = .ok (buf ++ (natLe 4 d.key ++ enc), 4 + enc.length) := by
  obtain ⟨hk, ht⟩ := row_of_name hv.1 hd hn
  rw [← hv.2] at ht
  refine ⟨_, tyFits_bytes ht, fun buf => ?_⟩
  rw [CfgVal.extendTo_eq hv, cfgKv, hk, hv.2]
  simp [natLe_length]

/-- C66, reading: the key of an item of the description, followed by the encoding of a value of its
type, is read as the variant of the same name with that value, whatever follows. -/
theorem c66_reads {d : Item} (hd : d ∈ descItems) {value : CfgValue} {enc : Bytes}
    (he : itemBytes d.ty value = some enc) :
    ∃ i, IsCfgVal cfgItems ⟨i, value⟩ ∧ Spells i.name d.name ∧
      ∀ rest, CfgVal.parse cfgItems (natLe 4 d.key ++ enc ++ rest) = .ok ⟨i, value⟩ := by
  obtain ⟨i, hi, hn, hk⟩ := c66_keys.2 d hd
  have ht := (row_of_name hi hd hn).2
  have hty := itemBytes_ty ht he
  have hv : IsCfgVal cfgItems ⟨i, value⟩ := ⟨hi, hty⟩
  refine ⟨i, hv, hn, fun rest => ?_⟩
  have hb := tyFits_bytes (v := value) (by rw [hty]; exact ht)
  rw [he] at hb
  have e : cfgKv ⟨i, value⟩ = natLe 4 d.key ++ enc := by
    rw [cfgKv, hk, Option.some.inj hb, hty]
  rw [← e]
  exact c35_parse hv rest

/-- C66: `group_id` of a key is the group of the item, `item_id` the number of the item within its
group reduced to eight bits. -/
theorem c66_parts {i : CfgItem} (hi : i ∈ cfgItems) {d : Item} (hd : d ∈ descItems)
    (hn : Spells i.name d.name) :
    (KeyId.groupId i.key).toNat = d.group ∧ (KeyId.itemId i.key).toNat = d.number % 256 := by
  have hk := (row_of_name hi hd hn).1
  have hb := (by decide +kernel : ∀ d ∈ descItems, d.group < 256 ∧ d.number < 4096) d hd
  have hp := c36_key_parts i.key
  rw [hk] at hp
  unfold Item.key at hp
  constructor
  · rw [hp.1]; omega
  · rw [hp.2]; omega

/-- Item numbers above 255 are cut off by `item_id`: two different items of the same group can have
the same `item_id`, here the output rates of UBX-NAV-PVT on I2C and of RTCM 1230 on USB. -/
theorem item_id_ambiguous : ∃ i ∈ cfgItems, ∃ j ∈ cfgItems, i.key ≠ j.key ∧
    KeyId.groupId i.key = KeyId.groupId j.key ∧ KeyId.itemId i.key = KeyId.itemId j.key :=
  ⟨⟨"MsgoutUbxNavPvtI2c", 0x20910006, .u8⟩, by decide +kernel,
    ⟨"MsgoutRtcm3xType1230Usb", 0x20910306, .u8⟩, by decide +kernel, by decide, by decide, by decide⟩

example : (⟨["UART1", "STOPBITS"], 0x52, 2, stopbits⟩ : Item) ∈ descItems ∧
    (⟨["UART1", "STOPBITS"], 0x52, 2, stopbits⟩ : Item).key = 0x20520002 ∧
    Spells "Uart1StopBits" ["UART1", "STOPBITS"] ∧
    itemBytes stopbits (.stopBits .two) = some [3] := by decide +kernel
example : (⟨["TP", "ANT_CABLEDELAY"], 0x05, 1, .I2⟩ : Item) ∈ descItems ∧
    itemBytes .I2 (.i16 (-2)) = some [0xFE, 0xFF] := by decide +kernel

end Ublox.Props
