import Verif.Model.Default
import Verif.Props.Rebuild

/-!
# C56: default builders
-/

namespace Ublox.Props

open Spec Gen

/-- What is documented to be sent for a field that is left at its default: the port number of SPI,
"airborne with less than 4 g" and "automatic 2D/3D" in CFG-NAV5, and zero bytes for every other
field. -/
def neutral (packet field : String) (width : Nat) : Bytes :=
  if packet = "CfgPrtSpi" ∧ field = "portid" then [4]
  else if packet = "CfgNav5" ∧ field = "dyn_model" then [8]
  else if packet = "CfgNav5" ∧ field = "fix_mode" then [3]
  else List.replicate width 0

/-- The packets whose builder has a default. -/
def withDefault : List PackDesc :=
  [cfgOdo_, cfgInf_, aidIni_, cfgTp5_, cfgTmode2_, cfgTmode3_, cfgPrtI2c_, cfgPrtSpi_, cfgNav5_,
    cfgNavX5_]

/-- **C56**: these packets have a default builder, and no others. -/
theorem c56_which : ∀ d ∈ allPackets, d.default.isSome = true ↔ d ∈ withDefault := by
  decide +kernel

theorem default_bytes : ∀ d ∈ allPackets, ∀ b ∈ d.default, b.length = d.fields.length ∧
    (d.fields.zip b).all (fun x =>
      decide (x.1.bytes x.2 = .ok (neutral d.name x.1.name (width x.1.ty)))) = true := by
  decide +kernel

theorem default_noTail : ∀ d ∈ allPackets, ∀ b ∈ d.default, d.hasBuilder = true ∧
    ∀ f ∈ d.fields, f.ty ≠ .tail := by
  decide +kernel

/-- **C56**: a builder in which some fields are set and the others left at their defaults: if it can
be sent at all, then it is sent as one frame of the packet in which every field left at its default
has the documented bytes. -/
theorem c56_rest {d : PackDesc} (hd : d ∈ allPackets) {b0 : Builder} (h0 : d.default = some b0)
    {b : Builder} {bytes : Bytes} (hb : d.intoPacketBytes b = .ok bytes) :
    ∃ q, bytes = frame d.cls d.id q ∧ q.length = total d.fields ∧
      ∀ (i : Nat) (f : FieldDesc), d.fields[i]? = some f → b[i]? = b0[i]? →
        slot d i f q = neutral d.name f.name (width f.ty) := by
  obtain ⟨hbld, ht⟩ := default_noTail d hd b0 h0
  obtain ⟨hl0, hall⟩ := default_bytes d hd b0 h0
  obtain ⟨ks, h1, -⟩ := buildable_blocks hd hbld ht (buildable_of_ok hd hbld ht hb)
  rw [intoPacketBytes_eq hbld (build_total hd hbld) h1] at hb
  have hlen := h1.length.1
  refine ⟨ks.flatten, (Except.ok.inj hb).symm, hlen, fun i f hf he => ?_⟩
  obtain ⟨hl1, hw, hby⟩ := blocks_nth h1
  have hi : i < b0.length := by rw [hl0]; exact (List.getElem?_eq_some_iff.mp hf).1
  have hv0 := List.getElem?_eq_getElem hi
  obtain ⟨k, hki, hkb⟩ := hby i f b0[i] hf (he.trans hv0)
  rw [show slot d i f ks.flatten = k from slot_of_blocks hl1 hw hf hki]
  rw [List.all_eq_true] at hall
  have hm : (f, b0[i]) ∈ d.fields.zip b0 := by
    refine List.mem_of_getElem? (i := i) ?_
    rw [List.getElem?_zip_eq_some]
    exact ⟨hf, hv0⟩
  have := hall _ hm
  rw [decide_eq_true_eq] at this
  simp only at this
  rw [hkb] at this
  exact Except.ok.inj this

/-- **C56**: a default builder can always be sent, and the payload consists of the documented bytes
of the fields, one after the other. -/
theorem c56_default : ∀ d ∈ allPackets, ∀ b ∈ d.default, d.intoPacketBytes b =
    .ok (frame d.cls d.id (d.fields.map fun f => neutral d.name f.name (width f.ty)).flatten) := by
  intro d hd b h0
  obtain ⟨hbld, ht⟩ := default_noTail d hd b h0
  obtain ⟨hl0, hall⟩ := default_bytes d hd b h0
  have hwid : ∀ d ∈ allPackets, d.default.isSome = true → ∀ f ∈ d.fields, width f.ty ≠ 0 ∧
      (neutral d.name f.name (width f.ty)).length = width f.ty := by decide +kernel
  have hwd := hwid d hd (by rw [h0]; rfl)
  refine c18_any_declaration hbld (build_total hd hbld) (fun f hf => (hwd f hf).1) hl0
    (by simp) fun i f v k hf hv hk => ?_
  rw [List.all_eq_true] at hall
  have hm : (f, v) ∈ d.fields.zip b := by
    refine List.mem_of_getElem? (i := i) ?_
    rw [List.getElem?_zip_eq_some]
    exact ⟨hf, hv⟩
  have h2 := hall _ hm
  rw [decide_eq_true_eq] at h2
  rw [List.getElem?_map, hf] at hk
  simp only [Option.map_some, Option.some.injEq] at hk
  subst hk
  exact ⟨h2, (hwd f (List.mem_of_getElem? hf)).2⟩

/-- **C56**: a receiver of the crate's own packets takes the default frame for a packet of the same
type again, and every accessor returns the default.  (AID-INI cannot be received; CFG-INF and
CFG-NAVX5 are not in the list of received packets, `packets.rs:3659-3718`, although they have accessors.) -/
theorem c56_received : ∀ d ∈ withDefault, d ∈ recvPackets → ∀ b ∈ d.default,
    let payload := (d.fields.map fun f => neutral d.name f.name (width f.ty)).flatten
    matchPacket d.cls d.id payload = .ok (.ok (.known d payload)) ∧
    (d.fields.map fun f => d.get f.getName payload) = b.map .ok := by decide +kernel

/-- The packets of which the last theorem speaks. -/
example : withDefault.filter (fun d => recvPackets.contains d) =
    [cfgOdo_, cfgTp5_, cfgTmode2_, cfgTmode3_, cfgPrtI2c_, cfgPrtSpi_, cfgNav5_] := by decide +kernel

/-- **C56**: the default of an enumeration is one of its declared variants, so it has a code on the
wire; the types with a default are these nine. -/
theorem c56_enums : (∀ e ∈ allEnums, ∀ v ∈ e.default, v ∈ e.variants) ∧
    ∀ e ∈ allEnums, e.default.isSome = true ↔
      e ∈ [odoProfile_, cfgItfmAntennaSettings_, cfgTp5TimePulseMode_, cfgTmode2TimeXferModes_,
        i2cPortId_, spiPortId_, cfgNav5DynModel_, cfgNav5FixMode_, cfgNav5UtcStandard_] := by
  decide +kernel

/-- **C56**: the default of `CfgLayer` is every declared layer (RAM, BBR and FLASH) and nothing else;
the default of any other flag type has no bit set. -/
theorem c56_flags : ∀ d ∈ allFlags, ∀ bit,
    d.default.testBit bit = true ↔ d = cfgLayer_ ∧ ∃ c ∈ d.consts, c.2 = 2 ^ bit := by
  have h0 : ∀ d ∈ allFlags, d.default ≠ 0 → d = cfgLayer_ := by decide +kernel
  have h7 : cfgLayer_.default = 7 := by decide +kernel
  intro d hd bit
  constructor
  · intro h
    have : d.default ≠ 0 := by
      intro e; rw [e, Nat.zero_testBit] at h; cases h
    have e := h0 d hd this
    subst e
    rw [h7] at h
    refine ⟨rfl, ?_⟩
    have hlt : bit < 3 := by
      have := Nat.ge_two_pow_of_testBit h
      exact (Nat.pow_lt_pow_iff_right (by decide : 1 < 2)).mp (by omega : 2 ^ bit < 2 ^ 3)
    have : ∀ b < 3, ∃ c ∈ cfgLayer_.consts, c.2 = 2 ^ b := by decide +kernel
    exact this bit hlt
  · rintro ⟨rfl, c, hc, he⟩
    rw [h7]
    have : ∀ c ∈ cfgLayer_.consts, c.2 = 1 ∨ c.2 = 2 ∨ c.2 = 4 := by decide +kernel
    rcases this c hc with h | h | h <;> rw [h] at he
    · have := Nat.pow_right_injective (le_refl 2) (he.symm.trans (pow_zero 2).symm); subst this; rfl
    · have := Nat.pow_right_injective (le_refl 2) (he.symm.trans (pow_one 2).symm); subst this; rfl
    · have := Nat.pow_right_injective (le_refl 2) (show 2 ^ bit = 2 ^ 2 from he.symm); subst this; rfl

/-- **C56**: the default of a raw type takes the width of the type and is all zero. -/
theorem c56_raw (ty : RawTy) : ty.default.toLeBytes = List.replicate (width ty) 0 := by
  cases ty <;> first | decide +kernel | rfl

/-- A CFG-NAV5 message that selects the automotive model and leaves everything else at its default. -/
example : ∃ b0, cfgNav5_.default = some b0 ∧
    cfgNav5_.intoPacketBytes ((b0.set 0 (.flags 1)).set 1 (.enum ("Automotive", 4))) =
      .ok (frame 0x06 0x24 ([1, 0, 4, 3] ++ List.replicate 32 0)) ∧
    ((b0.set 0 (.flags 1)).set 1 (.enum ("Automotive", 4)))[2]? = b0[2]? :=
  ⟨(cfgNav5_.default).get (by decide +kernel), by decide +kernel, by decide +kernel,
    by decide +kernel⟩

end Ublox.Props
