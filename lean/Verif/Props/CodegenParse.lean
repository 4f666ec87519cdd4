import Verif.Lemmas.CodegenParse
import Verif.Props.Codegen

/-!
# C75: the generated code for the list of packets
-/

namespace Ublox.Props

open Spec Gen Rust

variable {W E : Type}

/-- **C75**: for any list of packets, the generated `match_packet` tries the packets in the order of the list,
the generated `class_and_msg_id` returns class and id of the packet, and the generated `MAX_PAYLOAD_LEN` is the
largest of the packets' `MAX_PAYLOAD_LEN`. -/
theorem c75_list {r : Syn.RecvPackets} {ds : List PackDesc} (hr : r.allPackets = ds.map (·.name))
    {x : Externs W E} (hx : ParseLinks x ds) :
    (generateParseCode r).unionName = r.unionEnumName ∧ (generateParseCode r).packets = r.allPackets ∧
    (∀ cls msgId payload,
      (generateParseCode r).matchPacket.call x [.byte cls, .byte msgId, .bytes payload] =
        matchV r <$> matchPacketIn cls msgId payload ds) ∧
    ("Unknown" ∉ ds.map (·.name) → ∀ q : PacketRef, (∀ d p, q = .known d p → d ∈ ds) →
      (generateParseCode r).classAndMsgId.call x [packetRefV r q] =
        .ok (.pair (.byte q.classAndMsgId.1) (.byte q.classAndMsgId.2))) ∧
    ((∀ d ∈ ds, d.maxPayloadLen < 65536) → ∃ n : UInt16,
      (generateParseCode r).maxPayloadLen.eval x = .ok (rawV (.u16 n)) ∧
      (∀ d ∈ ds, d.maxPayloadLen ≤ n.toNat) ∧
      ((ds = [] ∧ n = 0) ∨ ∃ d ∈ ds, d.maxPayloadLen = n.toNat)) := by
  refine ⟨rfl, rfl, matchPacketCode_call x hr hx, ?_, ?_⟩
  · intro hu q hq
    exact classAndMsgIdCode_call x hr hx hu hq
  · intro hlt
    refine ⟨_, maxPayloadLen_const x hr hx hlt, ?_⟩
    have hf : ∀ (ds : List PackDesc) (n : Nat), n < 65536 → (∀ d ∈ ds, d.maxPayloadLen < 65536) →
        ds.foldl (fun prev d => max d.maxPayloadLen prev) n < 65536 ∧
        n ≤ ds.foldl (fun prev d => max d.maxPayloadLen prev) n ∧
        (∀ d ∈ ds, d.maxPayloadLen ≤ ds.foldl (fun prev d => max d.maxPayloadLen prev) n) ∧
        (ds.foldl (fun prev d => max d.maxPayloadLen prev) n = n ∨
          ∃ d ∈ ds, d.maxPayloadLen = ds.foldl (fun prev d => max d.maxPayloadLen prev) n) := by
      intro ds
      induction ds with
      | nil => intro n hn _; exact ⟨hn, Nat.le_refl _, by simp, .inl rfl⟩
      | cons d ds ih =>
        intro n hn h
        have hd := h d (.head _)
        obtain ⟨h1, h2, h3, h4⟩ := ih (max d.maxPayloadLen n) (by omega) fun e he => h e (.tail _ he)
        simp only [List.foldl_cons]
        refine ⟨h1, by omega, ?_, ?_⟩
        · intro e he
          rcases List.mem_cons.mp he with rfl | he
          · omega
          · exact h3 e he
        · rcases h4 with h4 | ⟨e, he, h4⟩
          · rcases Nat.le_total d.maxPayloadLen n with hle | hle
            · left; omega
            · right; exact ⟨d, .head _, by omega⟩
          · exact .inr ⟨e, .tail _ he, h4⟩
    obtain ⟨h1, -, h3, h4⟩ := hf ds 0 (by omega) hlt
    rw [UInt16.toNat_ofNat_of_lt' (by exact h1)]
    refine ⟨h3, ?_⟩
    rcases h4 with h4 | h4
    · cases ds with
      | nil => exact .inl ⟨rfl, rfl⟩
      | cons d ds =>
        have := h3 d (.head _)
        exact .inr ⟨d, .head _, by omega⟩
    · exact .inr h4

/-- **C75**, in a program: `validate` and the constants of the packets are themselves generated. -/
theorem c75_linked {base : Externs W E} {cs : List Conv} (hp : ProgramOk cs) {ds : List PackDesc}
    (hd : ∀ d ∈ ds, PacketIn cs d) (hacc : ∀ d ∈ ds, d.parse = .ok d)
    (hmap : ∀ d ∈ ds, ∀ f ∈ d.fields, f.sizeFn.isSome → f.map.isSome)
    (hm : ∀ d ∈ ds, (methodNames d).Nodup) (hM : ∀ d ∈ ds, SizesFit base.maxUsize d)
    (hn : (ds.map (·.name)).Nodup) : ParseLinks (parseX base cs ds) ds :=
  parseX_links hn fun d h payload =>
    (c72_linked hp (hd d h) (hacc d h) (hmap d h) (hm d h) (hM d h)).2.2.1 payload

theorem recv_names : (recvPackets.map (·.name)).Nodup ∧ "Unknown" ∉ recvPackets.map (·.name) := by
  decide +kernel

theorem recv_all : ∀ d ∈ recvPackets, d ∈ allPackets ∧ d.maxPayloadLen < 65536 := by decide +kernel

theorem crate_parse {base : Externs W E} (hM : 65535 ≤ base.maxUsize) :
    ParseLinks (parseX base crateConvs recvPackets) recvPackets :=
  c75_linked crate_program (fun d h => crate_packets d (recv_all d h).1)
    (fun d h => (crate_recv d (recv_all d h).1).1) (fun d h => (crate_recv d (recv_all d h).1).2.1)
    (fun d h => crate_methods d (recv_all d h).1)
    (fun d h => sizesFit_mono (crate_recv d (recv_all d h).1).2.2 hM) recv_names.1

/-- **C75** for the crate: the list of packets is read as `Gen.recvPackets`, and the generated functions and
the generated constant are those that the parser is modelled with. -/
theorem c75_crate {base : Externs W E} (hM : 65535 ≤ base.maxUsize) :
    ∃ r, Syn.parseIdentsList recvDecl = .ok r ∧ r.unionEnumName = "PacketRef" ∧
      (∀ cls msgId payload, (generateParseCode r).matchPacket.call (parseX base crateConvs recvPackets)
        [.byte cls, .byte msgId, .bytes payload] = matchV r <$> matchPacket cls msgId payload) ∧
      (∀ q : PacketRef, (∀ d p, q = .known d p → d ∈ recvPackets) →
        (generateParseCode r).classAndMsgId.call (parseX base crateConvs recvPackets) [packetRefV r q] =
          .ok (.pair (.byte q.classAndMsgId.1) (.byte q.classAndMsgId.2))) ∧
      (generateParseCode r).maxPayloadLen.eval (parseX base crateConvs recvPackets) =
        .ok (rawV (.u16 (UInt16.ofNat MAX_PAYLOAD_LEN))) := by
  have hx := crate_parse hM
  refine ⟨_, c69_crate_list, rfl, ?_, ?_, ?_⟩
  · exact matchPacketCode_call _ rfl hx
  · intro q hq
    exact classAndMsgIdCode_call _ rfl hx recv_names.2 hq
  · exact maxPayloadLen_const _ rfl hx fun d h => (recv_all d h).2

/-- **C75** for the crate, together with C23: the generated `match_packet` always returns a packet; it is the
first packet of the list with the class and the id for which the payload is valid, and the unknown packet if
there is none; and `class_and_msg_id` of the returned packet is the class and the id given. -/
theorem c75_dispatch {base : Externs W E} (hM : 65535 ≤ base.maxUsize) (cls id : UInt8) (payload : Bytes) :
    ∃ r q, Syn.parseIdentsList recvDecl = .ok r ∧
      (generateParseCode r).matchPacket.call (parseX base crateConvs recvPackets)
        [.byte cls, .byte id, .bytes payload] = .ok (.ok (packetRefV r q)) ∧
      (generateParseCode r).classAndMsgId.call (parseX base crateConvs recvPackets) [packetRefV r q] =
        .ok (.pair (.byte cls) (.byte id)) ∧
      ((q = .unknown payload cls id ∧
          ∀ e ∈ recvPackets, e.cls = cls → e.id = id → ¬ Valid e payload) ∨
        ∃ pre d post, q = .known d payload ∧ recvPackets = pre ++ d :: post ∧
          d.cls = cls ∧ d.id = id ∧ Valid d payload ∧
          ∀ e ∈ pre, e.cls = cls → e.id = id → ¬ Valid e payload) := by
  obtain ⟨r, h1, -, h2, h3, -⟩ := c75_crate hM
  obtain ⟨q, h4, h5, h6, h7⟩ := c23_dispatch cls id payload
  refine ⟨r, q, h1, ?_, ?_, ?_⟩
  · rw [h2, h4]; rfl
  · rw [h3 q, h5]
    rintro d p rfl
    obtain ⟨pre, post, h8, -⟩ := h7
    rw [h8]; simp
  · cases q with
    | known d p =>
      obtain ⟨pre, post, h8, h9⟩ := h7
      cases h6
      exact .inr ⟨pre, d, post, rfl, h8, h9⟩
    | unknown p c i =>
      cases h6
      cases h5
      exact .inl ⟨rfl, h7⟩

/-! ## Examples -/

/-- The hypotheses of C75 hold for the list of the crate. -/
example : 65535 ≤ exBase.maxUsize ∧ ParseLinks (parseX exBase crateConvs recvPackets) recvPackets ∧
    recvPackets ≠ [] := ⟨by decide, crate_parse (by decide), by decide +kernel⟩

/-- The generated code of a list of two packets, on payloads of the right and of a wrong length. -/
example :
    let r : Syn.RecvPackets := ⟨"PacketRef", "UbxUnknownPacketRef", ["AckAck", "AckNak"]⟩
    let x := parseX exBase crateConvs [ackAck_, ackNak_]
    (matchPacketCode r).call x [.byte 5, .byte 0, .bytes [6, 1]] =
      .ok (.ok (packetRefV r (.known ackNak_ [6, 1]))) ∧
    (matchPacketCode r).call x [.byte 5, .byte 0, .bytes [6]] =
      .ok (.ok (packetRefV r (.unknown [6] 5 0))) ∧
    (classAndMsgIdCode r).call x [packetRefV r (.known ackNak_ [6, 1])] =
      .ok (.pair (.byte 5) (.byte 0)) ∧
    (generateParseCode r).maxPayloadLen.eval x = .ok (rawV (.u16 2)) := ⟨rfl, rfl, rfl, rfl⟩

end Ublox.Props
