import Verif.Lemmas.CodegenSerde
import Verif.Props.CodegenParse
import Verif.Props.Serialize

/-!
# C76: the generated code for debug output and serialization
-/

namespace Ublox.Props

open Spec Gen Rust

variable {W E : Type}

/-- **C76**: for every accepted packet, the generated `fmt` writes the name of the packet and one entry per
field, in the order of the declaration, with the name of the field and the value of the accessor; the generated
`serialize_fields` gives such entries to the serializer, with iterators wrapped as `FieldIter`, after those
that it was given before; and both panic exactly if an accessor does. -/
theorem c76_packet {d : PackDesc} {code : RecvCode} (hc : generateRecvCode (packetCode d) = .ok code)
    {x : Externs W E} (hx : AccessorLinks x d) (payload : Bytes) (n : String) (es : List (String × V W E)) :
    code.debug.call x [refV d.name payload, .entries n es] =
      (fun kvs => .ok (.entries d.name kvs)) <$> fieldEntries d payload (fun _ v => valV v) d.fields ∧
    runState x code.serializeFields (refV d.name payload) (.entries n es) = fieldsResult d payload n es ∧
    ∀ y : Externs W E, y.methodMut (refV d.name payload) "serialize_fields" (.entries n es) =
        runState x code.serializeFields (refV d.name payload) (.entries n es) →
      code.serialize.call y [refV d.name payload, .entries n es] =
        (fun kvs => .ok (.entries n (es ++ kvs))) <$> fieldEntries d payload entryV d.fields := by
  have hcode : code.debug = debugCode (packetCode d) ∧
      code.serializeFields = serializeFieldsCode (packetCode d) ∧ code.serialize = serializeCode := by
    simp only [generateRecvCode] at hc
    cases h1 : recvFields (packetCode d).name (packetCode d).fields 0 [] with
    | error e => rw [h1] at hc; cases hc
    | ok q =>
      rw [h1] at hc
      simp only [okBind'] at hc
      cases h2 : validateCode (packetCode d) q.2 with
      | error e => rw [h2] at hc; cases hc
      | ok v =>
        rw [h2] at hc
        cases hc
        exact ⟨rfl, rfl, rfl⟩
  rw [hcode.1, hcode.2.1, hcode.2.2]
  refine ⟨debugCode_call x hx payload n es, serializeFieldsCode_run x hx payload n es, ?_⟩
  intro y hy
  exact serializeCode_call y (hy.trans (serializeFieldsCode_run x hx payload n es))

/-- The entries are one per field. -/
theorem fieldEntries_spec {d : PackDesc} {payload : Bytes} {g : FieldDesc → Val → V W E} :
    ∀ {fs : List FieldDesc} {kvs : List (String × V W E)}, fieldEntries d payload g fs = .ok kvs →
      List.Forall₂ (fun f kv => ∃ v, d.get f.getName payload = .ok v ∧ kv = (f.name, g f v)) fs kvs
  | [], _, h => by cases h; exact .nil
  | f :: fs, kvs, h => by
    simp only [fieldEntries] at h
    cases hv : d.get f.getName payload with
    | error p => rw [hv] at h; cases h
    | ok v =>
      rw [hv, okBind'] at h
      cases hr : fieldEntries d payload g fs with
      | error p => rw [hr] at h; cases h
      | ok rest =>
        rw [hr] at h
        cases h
        exact .cons ⟨v, hv, rfl⟩ (fieldEntries_spec hr)

/-- If all accessors return, there are entries. -/
theorem fieldEntries_ok {d : PackDesc} {payload : Bytes} {g : FieldDesc → Val → V W E} :
    ∀ {fs : List FieldDesc}, (∀ f ∈ fs, ∃ v, d.get f.getName payload = .ok v) →
      ∃ kvs, fieldEntries d payload g fs = .ok kvs
  | [], _ => ⟨[], rfl⟩
  | f :: fs, h => by
    obtain ⟨v, hv⟩ := h f (.head _)
    obtain ⟨kvs, hk⟩ := fieldEntries_ok (g := g) fun f hf => h f (.tail _ hf)
    exact ⟨(f.name, g f v) :: kvs, by simp only [fieldEntries, hv, hk, okBind']; rfl⟩

/-- **C76**: for any list of packets, the generated `serialize` of the enumeration gives the entries of the
packet, after its class and id. -/
theorem c76_union {r : Syn.RecvPackets} {ds : List PackDesc} (hr : r.allPackets = ds.map (·.name))
    {x : Externs W E} (hx : UnionLinks x r ds) (hu : "Unknown" ∉ ds.map (·.name))
    {q : PacketRef} (hq : ∀ d p, q = .known d p → d ∈ ds) (n : String) (es : List (String × V W E)) :
    (generateParseCode r).serializeUnion.call x [packetRefV r q, .entries n es] =
      (fun kvs => .ok (.entries n (es ++ kvs))) <$> packetEntries q :=
  serializeUnionCode_call x hr hx hu hq n es

/-- **C76**, in a program: the accessors, the constants and the serialization of the packets are themselves
generated. -/
theorem c76_linked {base : Externs W E} {cs : List Conv} (hp : ProgramOk cs) {ds : List PackDesc}
    (hd : ∀ d ∈ ds, PacketIn cs d) (hacc : ∀ d ∈ ds, d.parse = .ok d)
    (hmap : ∀ d ∈ ds, ∀ f ∈ d.fields, f.sizeFn.isSome → f.map.isSome)
    (hm : ∀ d ∈ ds, (methodNames d).Nodup) (hM : ∀ d ∈ ds, SizesFit base.maxUsize d)
    (hn : (ds.map (·.name)).Nodup) {r : Syn.RecvPackets}
    (hu : r.unknownTy ≠ "crate::ubx_packets::PacketSerializer") :
    (∀ d ∈ ds, AccessorLinks (accX base cs d) d) ∧ UnionLinks (unionX base cs r ds) r ds := by
  have ha : ∀ d ∈ ds, AccessorLinks (accX base cs d) d := fun d h =>
    accX_links (c72_linked hp (hd d h) (hacc d h) (hmap d h) (hm d h) (hM d h)).1
  refine ⟨ha, unionX_links hn hu ?_⟩
  intro d h payload n es
  obtain ⟨v, hv, -, -⟩ := validateCode_call (packX base cs d) (hacc d h) (hmap d h)
    (packX_recv base hp (hd d h)) (hM d h)
  have hcode := generateRecvCode_eq (hacc d h) (hmap d h)
  rw [hv] at hcode
  exact serializeFieldsX_call hn h hcode rfl (ha d h) payload n es

/-- **C76** for the crate: the generated `fmt` of every packet. -/
theorem c76_crate_debug {base : Externs W E} (hM : 65535 ≤ base.maxUsize) : ∀ s ∈ packetDecls,
    ∃ d ∈ allPackets, ∃ code, Syn.parsePacketDescription s = .ok (packetCode d) ∧
      generateRecvCode (packetCode d) = .ok code ∧
      ∀ payload n es, code.debug.call (accX base crateConvs d) [refV d.name payload, .entries n es] =
        (fun kvs => .ok (.entries d.name (kvs.map fun kv => (kv.1, valV kv.2)))) <$>
          d.debugFields payload := by
  intro s hs
  obtain ⟨d, hd, code, h1, -, h2, -, h3, -⟩ := c72_crate hM s hs
  refine ⟨d, hd, code, h1, h2, ?_⟩
  intro payload n es
  rw [(c76_packet h2 (accX_links h3) payload n es).1]
  have hg : ∀ g ∈ d.getters, g.run d payload = d.get g.field.getName payload := by
    intro g hg
    unfold PackDesc.get
    rw [getters_find hg (getNames_nodup (crate_methods d hd))]
  have := debugEntries_eq (W := W) (E := E) hg
  rw [show d.getters.map (·.field) = d.fields from genGetters_fields _ _ _] at this
  rw [this]
  unfold PackDesc.debugFields
  cases d.serializeFields payload d.getters <;> rfl

theorem crate_union {base : Externs W E} (hM : 65535 ≤ base.maxUsize) {r : Syn.RecvPackets}
    (hu : r.unknownTy ≠ "crate::ubx_packets::PacketSerializer") :
    (∀ d ∈ recvPackets, AccessorLinks (accX base crateConvs d) d) ∧
      UnionLinks (unionX base crateConvs r recvPackets) r recvPackets :=
  c76_linked crate_program (fun d h => crate_packets d (recv_all d h).1)
    (fun d h => (crate_recv d (recv_all d h).1).1) (fun d h => (crate_recv d (recv_all d h).1).2.1)
    (fun d h => crate_methods d (recv_all d h).1)
    (fun d h => sizesFit_mono (crate_recv d (recv_all d h).1).2.2 hM) recv_names.1 hu

/-- **C76** for the crate: the generated `serialize` of `PacketRef`, on a packet with accessors that return
(see `c25_accessors_partial`) and on unknown packets, returns; and what serde makes of the entries is what C52 is
about. -/
theorem c76_crate {base : Externs W E} (hM : 65535 ≤ base.maxUsize) {q : PacketRef}
    (hq : ∀ d p, q = .known d p → d ∈ recvPackets ∧ ∀ f ∈ d.fields, ∃ v, d.get f.getName p = .ok v) :
    ∃ r kvs, Syn.parseIdentsList recvDecl = .ok r ∧
      (∀ n es, (generateParseCode r).serializeUnion.call (unionX base crateConvs r recvPackets)
        [packetRefV r q, .entries n es] = .ok (.ok (.entries n (es ++ kvs)))) ∧
      ∀ M, serEntries M kvs = q.serializeAll M := by
  have hl := (crate_union (base := base) hM (r := ⟨"PacketRef", "UbxUnknownPacketRef",
    recvPackets.map (·.name)⟩) (by decide)).2
  have hcall := fun n es => c76_union rfl hl recv_names.2 (q := q) (fun d p h => (hq d p h).1) n es
  cases q with
  | unknown p c i =>
    exact ⟨_, _, c69_crate_list, hcall, fun M => rfl⟩
  | known d p =>
    obtain ⟨hd, hget⟩ := hq d p rfl
    obtain ⟨kvs, hk⟩ := fieldEntries_ok (W := W) (E := E) (g := entryV) hget
    refine ⟨_, [("class", .byte d.cls), ("msg_id", .byte d.id)] ++ kvs, c69_crate_list, ?_, ?_⟩
    · intro n es
      rw [hcall]
      simp only [packetEntries, hk]
      rfl
    · intro M
      have hg : ∀ g ∈ d.getters, g.run d p = d.get g.field.getName p := by
        intro g hg
        unfold PackDesc.get
        rw [getters_find hg (getNames_nodup (crate_methods d (recv_all d hd).1))]
      rw [← show d.getters.map (·.field) = d.fields from genGetters_fields _ _ _] at hk
      have := serEntries_eq (M := M) hg hk
      simp only [serEntries, PacketRef.serializeAll, this, serV, List.cons_append, List.nil_append]
      cases d.serializeEntries M p d.getters with
      | none => rfl
      | some s => cases s <;> rfl

/-- **C76** for the crate, together with C52: a delivered packet is serialized without panic, as its class, its
id, and one entry per field in the order of the declaration; an iterator as the sequence of all its blocks. -/
theorem c76_delivered {base : Externs W E} (hM : 65535 ≤ base.maxUsize) {cls id : UInt8} {payload p : Bytes}
    {d : PackDesc} (h : matchPacket cls id payload = .ok (.ok (.known d p)))
    (hu : d = cfgPrtUart_ → UartWordOk p) (hl : p.length ≤ base.maxUsize) :
    ∃ r kvs, ∃ ss : List Ser, Syn.parseIdentsList recvDecl = .ok r ∧
      (∀ n es, (generateParseCode r).serializeUnion.call (unionX base crateConvs r recvPackets)
        [packetRefV r (.known d p), .entries n es] = .ok (.ok (.entries n (es ++ kvs)))) ∧
      ss.length = d.fields.length ∧
      serEntries base.maxUsize kvs = some (.ok
        (("class", .val (.raw (.u8 cls))) :: ("msg_id", .val (.raw (.u8 id))) ::
          (d.fields.map FieldDesc.name).zip ss)) ∧
      ∀ (i : Nat) (f : FieldDesc), d.fields[i]? = some f →
        ∃ v s, ss[i]? = some s ∧ d.get f.getName p = .ok v ∧ SerOf v s := by
  obtain ⟨ss, h1, h2, h3⟩ := c52_serialized h hu hl
  obtain ⟨hget, -, -, -⟩ := c25_accessors_partial h hu
  obtain ⟨r, kvs, h4, h5, h6⟩ := c76_crate (base := base) hM (q := .known d p) (by
    intro d' p' he
    cases he
    exact ⟨(delivered h).1, hget⟩)
  exact ⟨r, kvs, ss, h4, h5, h1, (h6 _).trans h2, h3⟩

/-! ## Examples -/

/-- The generated code of ACK-NAK: debug output, and serialization in a list of two packets. -/
example :
    let r : Syn.RecvPackets := ⟨"PacketRef", "UbxUnknownPacketRef", ["AckAck", "AckNak"]⟩
    let x := unionX exBase crateConvs r [ackAck_, ackNak_]
    (debugCode (packetCode ackNak_)).call (accX exBase crateConvs ackNak_) [refV "AckNak" [6, 1], .entries "" []] =
      .ok (.ok (.entries "AckNak" [("class", .byte 6), ("msg_id", .byte 1)])) ∧
    (serializeUnionCode r).call x [packetRefV r (.known ackNak_ [6, 1]), .entries "" []] =
      .ok (.ok (.entries "" [("class", .byte 5), ("msg_id", .byte 0), ("class", .byte 6), ("msg_id", .byte 1)])) ∧
    (serializeUnionCode r).call x [packetRefV r (.unknown [7] 1 2), .entries "" []] =
      .ok (.ok (.entries "" [("payload", .bytes [7]), ("class", .byte 1), ("msg_id", .byte 2)])) :=
  ⟨rfl, rfl, rfl⟩

end Ublox.Props
