import Verif.Props.Protocol
import Verif.Props.Cli
import Verif.Spec.Names

/-!
# C83: names in debug output and serialized maps
-/

namespace Ublox.Props

open Spec Gen Spec.Protocol

theorem names_table : (allPackets.all fun d => d.fields.all fun f =>
    f.name == keyOf d.name f.getName) = true := by
  decide +kernel

/-- The field for an entry of the description. -/
theorem named_field {m : Message} (hm : m ∈ interface) {d : PackDesc} (hd : d ∈ allPackets)
    (hn : d.name = m.packet) {e : Field} (he : e ∈ m.fields)
    (hx : (m.packet, e.accessor) ∉ departures) :
    ∃ (i : Nat) (f : FieldDesc), d.fields[i]? = some f ∧ f.getName = e.accessor ∧
      sameField d e f i = true := by
  obtain ⟨i, f, hf, hs⟩ := declares_field ((interface_entry hm hd hn).2.2.2 e he hx)
  have ha : f.getName = e.accessor := by
    unfold sameField at hs
    simp only [Bool.and_eq_true, beq_iff_eq] at hs
    exact hs.1.1.1
  exact ⟨i, f, hf, ha, hs⟩

theorem assoc_unique {α : Type} {kvs : List (String × α)} (hn : (kvs.map Prod.fst).Nodup)
    {k : String} {a b : α} (ha : (k, a) ∈ kvs) (hb : (k, b) ∈ kvs) : b = a := by
  have := List.inj_on_of_nodup_map hn ha hb rfl
  exact ((Prod.mk.injEq ..).mp this).2.symm

theorem recv_sub : ∀ d ∈ recvPackets, d ∈ allPackets := by decide +kernel

theorem field_names_nodup : ∀ d ∈ allPackets, (d.fields.map FieldDesc.name).Nodup := by
  decide +kernel

theorem serialized_names_nodup : ∀ d ∈ recvPackets, d ≠ ackAck_ → d ≠ ackNak_ → d ≠ mgaAck_ →
    ("class" :: "msg_id" :: d.fields.map FieldDesc.name).Nodup := by
  decide +kernel

theorem names_all {d : PackDesc} (hd : d ∈ allPackets) {f : FieldDesc} (hf : f ∈ d.fields) :
    f.name = keyOf d.name f.getName :=
  beq_iff_eq.mp (List.all_eq_true.mp (List.all_eq_true.mp names_table d hd) f hf)

/-- **C83** In the serialized form of a delivered packet the value of every accessor is under its
short name, and (except in acknowledgements, C47) nothing else is. -/
theorem c83_serialized {cls id : UInt8} {d : PackDesc} {payload p : Bytes}
    (h : matchPacket cls id payload = .ok (.ok (.known d p)))
    (hu : d = cfgPrtUart_ → UartWordOk p) {M : Nat} (hM : p.length ≤ M) :
    ∃ kvs, (PacketRef.known d p).serializeAll M = some (.ok kvs) ∧
      ∀ f ∈ d.fields, ∃ v s, d.get f.getName p = .ok v ∧ SerOf v s ∧
        (keyOf d.name f.getName, s) ∈ kvs ∧
        (d ≠ ackAck_ → d ≠ ackNak_ → d ≠ mgaAck_ →
          ∀ s', (keyOf d.name f.getName, s') ∈ kvs → s' = s) := by
  obtain ⟨hr, -⟩ := delivered h
  obtain ⟨ss, hl, hk, hf⟩ := c52_serialized h hu hM
  refine ⟨_, hk, fun f hmf => ?_⟩
  obtain ⟨i, h1⟩ := List.mem_iff_getElem?.mp hmf
  obtain ⟨v, s, h4, h5, h6⟩ := hf i f h1
  have hmem : (keyOf d.name f.getName, s) ∈ (("class", .val (.raw (.u8 cls))) ::
      ("msg_id", .val (.raw (.u8 id))) :: (d.fields.map FieldDesc.name).zip ss) := by
    refine List.mem_cons_of_mem _ (List.mem_cons_of_mem _ (List.mem_of_getElem? (i := i) ?_))
    rw [List.getElem?_zip_eq_some]
    exact ⟨by rw [List.getElem?_map, h1, Option.map_some, names_all (recv_sub d hr) hmf], h4⟩
  refine ⟨v, s, h5, h6, hmem, fun a1 a2 a3 s' hs' => ?_⟩
  refine assoc_unique ?_ hmem hs'
  rw [List.map_cons, List.map_cons, List.map_fst_zip (by simp [hl])]
  exact serialized_names_nodup d hr a1 a2 a3

/-- **C83** The same for the entries that the debug output of a packet or of a block shows. -/
theorem c83_entries {d : PackDesc} (hd : d ∈ allPackets) {data : Bytes} {kvs : List (String × Val)}
    (hv : EntriesOf d data kvs) : ∀ f ∈ d.fields, ∃ v, d.get f.getName data = .ok v ∧
      ∀ v', (keyOf d.name f.getName, v') ∈ kvs ↔ v' = v := by
  intro f hmf
  obtain ⟨i, h1⟩ := List.mem_iff_getElem?.mp hmf
  obtain ⟨hnames, hf⟩ := hv
  obtain ⟨v, h4, h5⟩ := hf i f h1
  have hmem : (keyOf d.name f.getName, v) ∈ kvs := names_all hd hmf ▸ List.mem_of_getElem? h4
  refine ⟨v, h5, fun v' => ⟨fun hv' => ?_, ?_⟩⟩
  · exact assoc_unique (by rw [hnames]; exact field_names_nodup d hd) hmem hv'
  · rintro rfl
    exact hmem

theorem c83_debug {cls id : UInt8} {d : PackDesc} {payload p : Bytes}
    (h : matchPacket cls id payload = .ok (.ok (.known d p)))
    (hu : d = cfgPrtUart_ → UartWordOk p) :
    ∃ kvs, d.debugFields p = .ok kvs ∧ ∀ f ∈ d.fields, ∃ v, d.get f.getName p = .ok v ∧
      ∀ v', (keyOf d.name f.getName, v') ∈ kvs ↔ v' = v := by
  obtain ⟨kvs, h1, h2⟩ := debug_entries h hu
  exact ⟨kvs, h1, c83_entries (recv_sub d (delivered h).1) h2⟩

/-- **C83** With C57: under the short name of a number, code, float or byte array of the interface
description stands what the description says. -/
theorem c83_described {m : Message} (hm : m ∈ interface) {cls id : UInt8} {d : PackDesc}
    {payload p : Bytes} (h : matchPacket cls id payload = .ok (.ok (.known d p)))
    (hn : d.name = m.packet) (hu : d = cfgPrtUart_ → UartWordOk p) {M : Nat} (hM : p.length ≤ M) :
    ∃ kvs, (PacketRef.known d p).serializeAll M = some (.ok kvs) ∧
      ∀ e ∈ m.fields, (m.packet, e.accessor) ∉ departures → Reads d e payload ∧
        ∃ v s, d.get e.accessor payload = .ok v ∧ SerOf v s ∧
          (keyOf m.packet e.accessor, s) ∈ kvs := by
  obtain ⟨hr, -⟩ := delivered h
  obtain ⟨kvs, hk, hf⟩ := c83_serialized h hu hM
  obtain ⟨-, -, hp, -, hreads⟩ := c57_reading_partial hm h hn
  subst hp
  refine ⟨kvs, hk, fun e he hx => ⟨hreads e he hx, ?_⟩⟩
  obtain ⟨i, f, h1, h2, -⟩ := named_field hm (recv_sub d hr) hn he hx
  obtain ⟨v, s, h3, h4, h5, -⟩ := hf f (List.mem_of_getElem? h1)
  rw [h2] at h3 h5
  rw [hn] at h5
  exact ⟨v, s, h3, h4, h5⟩

/-- Longitude and latitude of NAV-POSLLH are under `lon` and `lat`. -/
example : (∃ m ∈ interface, m.packet = "NavPosLlh" ∧ scaled 4 .I4 "lon_degrees" e7 ∈ m.fields) ∧
    keyOf "NavPosLlh" "lon_degrees" = "lon" ∧ keyOf "NavPosLlh" "height_msl" = "height_msl" ∧
    matchPacket 0x01 0x02 (List.replicate 28 1) =
      .ok (.ok (.known navPosLlh_ (List.replicate 28 1))) ∧ navPosLlh_.name = "NavPosLlh" ∧
    ("NavPosLlh", "lon_degrees") ∉ departures := by decide +kernel

end Ublox.Props
