import Verif.Spec.EndToEnd
import Verif.Spec.Device
import Verif.Props.Protocol
import Verif.Props.Junk
import Verif.Props.Device
import Verif.Lemmas.Arrive

/-!
# C71: messages of the interface description arrive, under their type and with their values
-/

namespace Ublox.Props

open Spec Gen Spec.Protocol Ublox.Parser

/-! ## One message -/

/-- The fields whose bytes can be refused are those that `Conforms` speaks about. -/
def covered (d : PackDesc) (f : FieldDesc) (i : Nat) : Bool :=
  !f.mayFail ||
  match f.map with
  | some (.enum e) => f.ty == .u8 && closedFields.any fun x =>
      x.1 == d.name && x.2.1 == start d.fields i && Codes.enumCodes.all fun t =>
        t.type != x.2.2 || t.codes.all fun c => (e.variants.map (·.2.toNat)).contains c.2
  | some .cstr => d.name == "MonVer" && (start d.fields i == 0 && f.ty == .bytes 30 ||
      start d.fields i == 30 && f.ty == .bytes 10)
  | some (.iter k) => f.ty == .tail && (
      k == .esfMeas && d.name == "EsfMeas" && start d.fields i == 8 ||
      (k != .monVerExt || d.name == "MonVer") && interface.all fun m => m.packet != d.name ||
        m.len == .blocks (start d.fields i) (blockSize k))
  | _ => true

theorem covered_table : (recvPackets.all fun d => d.fields.zipIdx.all fun x => covered d x.1 x.2) =
    true := by decide +kernel

/-- Packets of the same class and id have different lengths, except CFG-PRT and the two declarations of
MGA-GPS-EPH. -/
def apart (d e : PackDesc) : Bool :=
  d == e || d.cls != e.cls || d.id != e.id ||
  (total d.fields != total e.fields && (d.fields ++ e.fields).all fun f =>
    f.ty != .tail && f.sizeFn == none) ||
  (d.cls == 6 && d.id == 0) || (d == mgaGpsEPH_) || (d == mgaGpsEph_ && e == mgaGpsEPH_)

theorem apart_table : (recvPackets.all fun d => recvPackets.all fun e => apart d e) = true := by
  decide +kernel

theorem receivable_table : (interface.all fun m => notReceived.contains m.packet ||
    recvPackets.any fun d => d.name == m.packet && d.name != "MgaGpsEPH") = true := by
  decide +kernel

/-- A conforming payload is valid. -/
theorem valid_of_conforms {m : Message} (hm : m ∈ interface) {d : PackDesc} (hd : d ∈ recvPackets)
    (hn : d.name = m.packet) {payload : Bytes} (h : Conforms m payload) : Valid d payload := by
  have ha := (recv_readable d hd).1
  have hlen : LenOk d payload := by
    by_cases ho : ∀ b, m.len ≠ .open b
    · exact c57_accepts hm ha hn h.len ho
    · simp only [not_forall, not_not] at ho
      have hopen : ∀ m ∈ interface, ∀ d ∈ recvPackets, d.name = m.packet →
          (match m.len with | .open _ => true | _ => false) = true → d = esfMeas_ := by
        decide +kernel
      obtain ⟨b, hb⟩ := ho
      have he := hopen m hm d hd hn (by rw [hb])
      subst he
      have hw := h.words hn.symm
      unfold LenOk required
      have ht : total esfMeas_.fields = 8 := by decide +kernel
      have hs : esfMeas_.fields.filterMap (·.sizeFn) = [.dataLen, .calibTagLen] := by decide +kernel
      rw [if_pos (by decide +kernel), ht, hs]
      simp only [List.map_cons, List.map_nil, List.sum_cons, List.sum_nil, announcedSize]
      split at hw <;> split <;> omega
  refine ⟨hlen, fun i f hf hmf => ?_⟩
  have hc := List.all_eq_true.mp (List.all_eq_true.mp covered_table d hd) (f, i)
    (List.mem_zipIdx_iff_getElem?.mpr hf)
  have htot : total d.fields ≤ payload.length := by
    have h1 := hlen
    unfold LenOk required at h1
    split at h1 <;> split at h1 <;> omega
  have hin := start_add_le_total hf
  simp only [covered, hmf, Bool.not_true, Bool.false_or] at hc
  cases hmap : f.map with
  | none => trivial
  | some c =>
    rw [hmap] at hc
    cases c with
    | enum e =>
      simp only [Bool.and_eq_true, beq_iff_eq, List.any_eq_true, List.all_eq_true, Bool.or_eq_true,
        bne_iff_ne, ne_eq, List.contains_iff_mem] at hc
      obtain ⟨hty, x, hx, ⟨hx1, hx2⟩, hx3⟩ := hc
      obtain ⟨b, hb, t, ht, htt, c, hcc, hbc⟩ := h.codes x hx (by rw [hx1, hn])
      have hv := (hx3 t ht).resolve_left (fun hh => hh htt) c hcc
      obtain ⟨v, hv1, hv2⟩ := List.mem_map.mp hv
      refine ⟨b, ?_, List.mem_map.mpr ⟨v, hv1, UInt8.toNat_inj.mp (by rw [hv2, hbc])⟩⟩
      have hlt : start d.fields i < payload.length := by
        rw [hty] at hin
        simp only [width] at hin
        omega
      rw [hx2, List.getElem?_eq_getElem hlt, Option.some.injEq] at hb
      simp only [fieldBytes, hty, width]
      rw [if_neg (by decide), List.drop_eq_getElem_cons hlt, hb]
      rfl
    | cstr =>
      simp only [Bool.and_eq_true, Bool.or_eq_true, beq_iff_eq] at hc
      obtain ⟨hmv, hc⟩ := hc
      obtain ⟨h1, h2, -⟩ := h.texts (by rw [← hn, hmv])
      rcases hc with ⟨hs, hty⟩ | ⟨hs, hty⟩
      · simp only [fieldBytes, hty, width, hs]
        rw [if_neg (by decide), List.drop_zero]
        exact h1
      · simp only [fieldBytes, hty, width, hs]
        rw [if_neg (by decide)]
        exact h2
    | iter k =>
      simp only [Bool.and_eq_true, Bool.or_eq_true, beq_iff_eq, List.all_eq_true, bne_iff_ne,
        ne_eq] at hc
      obtain ⟨hty, hc⟩ := hc
      simp only [fieldBytes, if_pos hty, List.length_drop]
      rcases hc with ⟨⟨hk, he⟩, hs⟩ | ⟨hk, hl⟩
      · subst hk
        have hw := h.words (by rw [← hn, he])
        refine ⟨?_, fun hh => by cases hh⟩
        rw [hs, hw]
        exact ⟨_, Nat.add_sub_cancel_left ..⟩
      · have hl := (hl m hm).resolve_left (fun hh => hh hn.symm)
        have hk' := h.len
        rw [hl] at hk'
        obtain ⟨j, hj⟩ := hk'
        refine ⟨⟨j, by omega⟩, fun hkm n hi => ?_⟩
        subst hkm
        have hm' := hk.resolve_left (fun hh => hh rfl)
        have htail : ∀ d ∈ recvPackets, ∀ x ∈ d.fields.zipIdx, d.name = "MonVer" → x.1.ty = .tail →
            start d.fields x.2 = 40 := by decide +kernel
        have hs := htail d hd (f, i) (List.mem_zipIdx_iff_getElem?.mpr hf) hm' hty
        simp only at hs
        rw [hs] at hi hj ⊢
        unfold block
        rw [List.drop_drop]
        refine (h.texts (by rw [← hn, hm'])).2.2 n ?_
        rw [hj] at hi ⊢
        simp only [blockSize] at hi ⊢
        omega
    | _ => trivial

/-- The port ids. -/
theorem port_codes (b : UInt8) : (HasCode "I2cPortId" b ↔ b = 0) ∧ (HasCode "SpiPortId" b ↔ b = 4) ∧
    (HasCode "UartPortId" b ↔ b = 1 ∨ b = 2 ∨ b = 3) := by
  unfold HasCode
  revert b
  decide +kernel

/-- **C71**: a payload that the description allows for a message that the crate receives is handed out
as the packet of that message, with this payload. -/
theorem c71_accepted {m : Message} (hm : m ∈ interface) {d : PackDesc} (hd : d ∈ recvPackets)
    (hn : d.name = m.packet) (hr : m.packet ∉ notReceived) {payload : Bytes}
    (h : Conforms m payload) :
    matchPacket m.cls m.id payload = .ok (.ok (.known d payload)) := by
  have ha := (recv_readable d hd).1
  obtain ⟨ec, ei, -, -⟩ := interface_entry hm ha hn
  have hv := valid_of_conforms hm hd hn h
  obtain ⟨p, h1, h2, h3, h4⟩ := c23_dispatch m.cls m.id payload
  cases p with
  | unknown q c i => exact absurd hv (h4 d hd ec ei)
  | known d' q =>
    simp only [PacketRef.payload] at h3
    subst h3
    obtain ⟨pre, post, i1, i2, i3, i4, i5⟩ := h4
    suffices d' = d by rw [h1, this]
    have hd' : d' ∈ recvPackets := by rw [i1]; simp
    have ht := List.all_eq_true.mp (List.all_eq_true.mp apart_table d hd) d' hd'
    have hne : d ≠ mgaGpsEPH_ := by
      rintro rfl
      apply hr
      rw [← hn]
      decide
    simp only [apart, Bool.or_eq_true, Bool.and_eq_true, beq_iff_eq, bne_iff_ne, ne_eq, ec, ei, i2, i3,
      not_true_eq_false, or_false, List.all_eq_true, hne] at ht
    rcases ht with ((ht | ⟨ht1, ht2⟩) | ⟨hc, hi⟩) | ⟨rfl, rfl⟩
    · exact ht.symm
    · exfalso
      apply ht1
      have hl : ∀ e : PackDesc, (∀ f ∈ e.fields, f ∈ d.fields ++ d'.fields) → LenOk e q →
          q.length = total e.fields := by
        intro e he hl
        unfold LenOk required at hl
        have h0 : e.fields.filterMap (·.sizeFn) = [] := by
          rw [List.filterMap_eq_nil_iff]
          exact fun f hf => (ht2 f (he f hf)).2
        rw [if_neg ?_, h0] at hl
        · split at hl
          · omega
          · simpa using hl
        · simp only [List.any_eq_true, not_exists, not_and, beq_iff_eq]
          exact fun f hf => (ht2 f (he f hf)).1
      rw [← hl d (fun f hf => List.mem_append_left _ hf) hv.1,
        ← hl d' (fun f hf => List.mem_append_right _ hf) i4.1]
    · have hports : ∀ e ∈ recvPackets, e.cls = 6 → e.id = 0 →
          e = cfgPrtI2c_ ∨ e = cfgPrtSpi_ ∨ e = cfgPrtUart_ := by decide +kernel
      have hlen : q.length = 20 := by
        have : ∀ m ∈ interface, m.cls = 6 → m.id = 0 → m.len = .fixed 20 := by decide +kernel
        have hl := h.len
        rw [this m hm hc hi] at hl
        exact hl
      cases q with
      | nil => simp at hlen
      | cons b rest =>
        rw [hc, hi, c24_cfg_prt b rest (by simpa using hlen)] at h1
        simp only [Except.ok.injEq] at h1
        have hcode : ∀ x ∈ closedFields, x.1 = d.name → x.2.1 = 0 → HasCode x.2.2 b := by
          intro x hx hxn hx0
          obtain ⟨b', hb', hh⟩ := h.codes x hx (by rw [hxn, hn])
          rw [hx0] at hb'
          simp only [List.getElem?_cons_zero, Option.some.injEq] at hb'
          rw [hb']
          exact hh
        rcases hports d hd (ec.trans hc) (ei.trans hi) with rfl | rfl | rfl
        · have h0 := hcode ("CfgPrtI2c", 0, "I2cPortId") (by decide) rfl rfl
          rw [if_pos ((port_codes b).1.mp h0)] at h1
          injection h1 with h1
          exact h1.symm
        · have h0 := hcode ("CfgPrtSpi", 0, "SpiPortId") (by decide) rfl rfl
          have h0 := (port_codes b).2.1.mp h0
          subst h0
          rw [if_neg (by decide), if_pos rfl] at h1
          injection h1 with h1
          exact h1.symm
        · have h0 := hcode ("CfgPrtUart", 0, "UartPortId") (by decide) rfl rfl
          have h0 := (port_codes b).2.2.mp h0
          rw [if_neg (by rintro rfl; revert h0; decide), if_neg (by rintro rfl; revert h0; decide),
            if_pos h0] at h1
          injection h1 with h1
          exact h1.symm
    · exfalso
      have hpre : mgaGpsEph_ ∈ pre := by
        have h5 : mgaGpsEPH_ ∉ pre := by
          intro h5
          have hnd : recvPackets.countP (· == mgaGpsEPH_) = 1 := by decide +kernel
          rw [i1, List.countP_append, List.countP_cons] at hnd
          have := List.countP_pos_iff (p := (· == mgaGpsEPH_)).mpr ⟨_, h5, beq_self_eq_true mgaGpsEPH_⟩
          rw [if_pos (beq_self_eq_true _)] at hnd
          omega
        have h6 : recvPackets.takeWhile (· != mgaGpsEPH_) = pre := by
          rw [i1, List.takeWhile_append_of_pos, List.takeWhile_cons]
          · simp
          · intro x hx
            simp only [bne_iff_ne]
            rintro rfl
            exact h5 hx
        rw [← h6]
        decide +kernel
      exact i5 _ hpre ec ei hv

/-- Every other message of the table has a packet in the list of the parser. -/
theorem c71_receivable {m : Message} (hm : m ∈ interface) (hr : m.packet ∉ notReceived) :
    ∃ d ∈ recvPackets, d.name = m.packet := by
  have h := List.all_eq_true.mp receivable_table m hm
  simp only [Bool.or_eq_true, List.contains_iff_mem, hr, false_or, List.any_eq_true, Bool.and_eq_true,
    beq_iff_eq] at h
  obtain ⟨d, hd, hn, -⟩ := h
  exact ⟨d, hd, hn⟩

/-! ## Streams of messages -/

/-- A message as a receiver may send it: an entry of the table and a payload. -/
def Sent (x : Message × Bytes) : Prop :=
  x.1 ∈ interface ∧ x.1.packet ∉ notReceived ∧ Conforms x.1 x.2

/-- The packet is the one of this message, has its payload, and the accessors return what the
description says is there, except for the fields in `departures` (see C57). -/
def Arrives (x : Message × Bytes) (p : PacketRef) : Prop :=
  ∃ d, p = .known d x.2 ∧ d.name = x.1.packet ∧
    ∀ e ∈ x.1.fields, (x.1.packet, e.accessor) ∉ departures → Reads d e x.2

/-- Class, id and payload on the wire. -/
def onWire (x : Message × Bytes) : UInt8 × UInt8 × Bytes := (x.1.cls, x.1.id, x.2)

/-- The packets among the results. -/
def packetsAmong (rs : List (Except ParserError PacketRef)) : List PacketRef :=
  rs.filterMap Except.toOption

theorem sent_arrives {x : Message × Bytes} (h : Sent x) :
    ∃ p, crateDispatch.matchPacket x.1.cls x.1.id x.2 = .ok p ∧ Arrives x p := by
  obtain ⟨h1, h2, h3⟩ := h
  obtain ⟨d, hd, hn⟩ := c71_receivable h1 h2
  have h4 := c71_accepted h1 hd hn h2 h3
  obtain ⟨-, -, -, -, h5⟩ := c57_reading_partial h1 h4 hn
  refine ⟨_, ?_, d, rfl, hn, h5⟩
  rw [crateDispatch_eq] at h4
  exact Except.ok.inj h4

/-- The packets for the frames of the messages. -/
theorem sent_all {xs : List (Message × Bytes)} (h : ∀ x ∈ xs, Sent x) :
    ∃ ps, xs.map (fun x => crateDispatch.matchPacket x.1.cls x.1.id x.2) = ps.map .ok ∧
      List.Forall₂ Arrives xs ps := by
  induction xs with
  | nil => exact ⟨[], rfl, .nil⟩
  | cons x xs ih =>
    obtain ⟨ps, h1, h2⟩ := ih fun y hy => h y (List.mem_cons_of_mem _ hy)
    obtain ⟨p, h3, h4⟩ := sent_arrives (h x List.mem_cons_self)
    exact ⟨p :: ps, by simp only [List.map_cons, h1, h3], .cons h4 h2⟩

/-- The packets among the answers are those of the frames that were decoded. -/
theorem handed_packets (evs : List Ev) : handed crateDispatch evs =
    (packets evs).filterMap fun f => (crateDispatch.matchPacket f.1 f.2.1 f.2.2).toOption := by
  unfold handed
  induction evs with
  | nil => rfl
  | cons ev evs ih =>
    cases ev with
    | packet c i p =>
      rw [packets, List.filterMap_cons, List.filterMap_cons, ih]
      rfl
    | badChecksum a b =>
      rw [List.filterMap_cons]
      exact ih
    | tooLarge n =>
      rw [List.filterMap_cons]
      exact ih

theorem handed_sent {xs : List (Message × Bytes)} (h : ∀ x ∈ xs, Sent x) {evs : List Ev}
    {more : List (UInt8 × UInt8 × Bytes)} (he : packets evs = xs.map onWire ++ more) :
    ∃ ps rest, handed crateDispatch evs = ps ++ rest ∧ List.Forall₂ Arrives xs ps := by
  obtain ⟨ps, h1, h2⟩ := sent_all h
  refine ⟨ps, more.filterMap fun f => (crateDispatch.matchPacket f.1 f.2.1 f.2.2).toOption, ?_, h2⟩
  rw [handed_packets, he, List.filterMap_append]
  congr 1
  rw [List.filterMap_map]
  have h3 := congrArg (List.filterMap Except.toOption) h1
  rw [List.filterMap_map, List.filterMap_map] at h3
  have h5 := h3.trans (by rw [show (Except.toOption ∘ (Except.ok (ε := ParserError)) :
    PacketRef → Option PacketRef) = some from rfl, List.filterMap_some])
  exact h5

/-- **C71**, growable buffer: messages of the description, sent one after the other with anything in
between in which no frame begins, and followed by at least the length of a largest frame, all arrive:
the packets that the parser hands out are those of the messages, in order, with their payloads and
values (and possibly more from what follows), however the bytes are split into calls. -/
theorem c71_vec {M : Nat} (hM : 8176 + 8 ≤ M) (h : List (Bytes × Nat))
    (hc : ∀ x ∈ h, x.1.length + 8176 + 8 ≤ M / 2) {xs : List (Message × Bytes)}
    (hx : ∀ x ∈ xs, Sent x) (hj : Junky 8176 (8176 + 8) (fedBytes h) (xs.map onWire))
    {rss q} (hq : session M crateDispatch (vecParser M) h = some (.ok (rss, q)))
    (he : Exhausted rss) :
    ∃ ps rest, packetsAmong (results rss) = ps ++ rest ∧ List.Forall₂ Arrives xs ps := by
  obtain ⟨evs, h1, -, more, h2⟩ := c60_vec_all_frames (D := crateDispatch)
    (by rw [crate_max]; omega) (by rw [crate_max]; omega) h (by rw [crate_max]; exact hc) _
    (by rw [crate_max]; exact hj) hq he
  obtain ⟨ps, rest, h3, h4⟩ := handed_sent hx h2
  refine ⟨ps, rest, ?_, h4⟩
  rw [← h3, h1]
  unfold packetsAmong handed
  rw [List.filterMap_map]
  rfl

/-- **C71**, growable buffer: if no `b5 62` occurs between the messages, the results are the packets of
the messages and nothing else. -/
theorem c71_vec_exact {M : Nat} (hM : 8176 + 8 ≤ M) (h : List (Bytes × Nat))
    (hc : ∀ x ∈ h, x.1.length + 8176 + 8 ≤ M / 2) {items : List (Bytes × Message × Bytes)}
    {last : Bytes} (hsep : ∀ x ∈ items, NoSync x.1) (hlast : NoSync last)
    (hx : ∀ x ∈ items, Sent x.2 ∧ x.2.2.length ≤ 8176)
    (hfed : fedBytes h = cleanStream (items.map fun x => (x.1, onWire x.2)) last)
    {rss q} (hq : session M crateDispatch (vecParser M) h = some (.ok (rss, q)))
    (he : Exhausted rss) :
    ∃ ps, results rss = ps.map .ok ∧ List.Forall₂ Arrives (items.map Prod.snd) ps := by
  obtain ⟨h1, -⟩ := c60_vec_no_sync (D := crateDispatch) (by rw [crate_max]; omega)
    (by rw [crate_max]; omega) (items.map fun x => (x.1, onWire x.2)) last
    (fun x hx' => by obtain ⟨y, hy, rfl⟩ := List.mem_map.mp hx'; exact hsep y hy) hlast
    (fun x hx' => by
      obtain ⟨y, hy, rfl⟩ := List.mem_map.mp hx'
      rw [crate_max]
      exact (hx y hy).2) h hfed (by rw [crate_max]; exact hc) hq he
  obtain ⟨ps, h2, h3⟩ := sent_all (xs := items.map Prod.snd) (fun x hx' => by
    obtain ⟨y, hy, rfl⟩ := List.mem_map.mp hx'
    exact (hx y hy).1)
  refine ⟨ps, ?_, h3⟩
  rw [h1, ← h2, List.map_map, List.map_map]
  rfl

/-- **C71**, fixed buffer in which the frames fit. -/
theorem c71_flb {M : Nat} (hM : 8176 + 8 ≤ M) (backing : Bytes) (hb : backing.length ≤ M / 2)
    (h5 : 5 ≤ backing.length) (h : List (Bytes × Nat)) (hs : Slices M h)
    {xs : List (Message × Bytes)} (hx : ∀ x ∈ xs, Sent x ∧ x.2.length + 7 ≤ backing.length) {n : Nat}
    (hj : Junky 8176 n (fedBytes h) (xs.map onWire)) (hn : 8176 + 8 ≤ n ∨ backing.length < n)
    {rss q} (hq : session M crateDispatch (flbParser M backing) h = some (.ok (rss, q)))
    (he : Exhausted rss) :
    ∃ ps rest, packetsAmong (results rss) = ps ++ rest ∧ List.Forall₂ Arrives xs ps := by
  obtain ⟨evs, h1, more, h2⟩ := c60_flb_all_frames (D := crateDispatch)
    (by rw [crate_max]; omega) (by rw [crate_max]; omega) backing hb h5 h hs n (xs.map onWire)
    (fun f hf => by obtain ⟨y, hy, rfl⟩ := List.mem_map.mp hf; exact (hx y hy).2)
    (by rw [crate_max]; exact hj) (by rw [crate_max]; exact hn) hq he
  obtain ⟨ps, rest, h3, h4⟩ := handed_sent (fun x hx' => (hx x hx').1) h2
  refine ⟨ps, rest, ?_, h4⟩
  rw [← h3, h1]
  unfold packetsAmong handed
  rw [List.filterMap_map]
  rfl

/-- **C71**, the example program: over any number of calls of `update` on a port that delivers such a
stream, the callback is called for the packets of the messages, in order. -/
theorem c71_updates {E σ : Type} {M : Nat} (hM : 8176 + 8 + 1240 ≤ M / 2) (port : Port E)
    (cb : PacketRef → σ → R σ) (k : Nat) {dev : Device M}
    (hb : Holds crateDispatch.maxPayloadLen dev []) {s s' : σ} {ress dev'}
    (h : Device.updates M crateDispatch port cb k dev s = some (.ok (ress, s', dev')))
    {xs : List (Message × Bytes)} (hx : ∀ x ∈ xs, Sent x)
    (hj : ∀ n, dev'.reads = dev.reads + n →
      Junky 8176 (8176 + 8) (received port dev.reads n) (xs.map onWire)) :
    ∃ ps rest, (ps ++ rest).foldlM (fun s p => cb p s) s = .ok s' ∧ List.Forall₂ Arrives xs ps := by
  obtain ⟨n, h1, -, h2, -⟩ := c62_calls (by rw [crate_max]; exact hM) port cb k hb h
  have hj := hj n h1
  rw [List.nil_append, crate_max] at h2
  obtain ⟨more, h3⟩ := decode_junky (by omega) hj
  obtain ⟨ps, rest, h4, h5⟩ := handed_sent hx h3
  exact ⟨ps, rest, by rw [← h4]; exact h2, h5⟩

/-! ## Examples -/

/-- An ACK-ACK message and a CFG-PRT message for a UART. -/
example : ∃ x y : Message × Bytes, Sent x ∧ Sent y ∧ x.1.packet = "AckAck" ∧
    y.1.packet = "CfgPrtUart" := by
  refine ⟨(⟨"AckAck", 0x05, 0x01, .fixed 2, [num 0 .U1 "class", num 1 .U1 "msg_id"]⟩, [6, 1]),
    (⟨"CfgPrtUart", 0x06, 0x00, .fixed 20, num 8 .U4 "baud_rate" :: port⟩,
      2 :: List.replicate 19 0), ⟨?_, ?_, ?_, ?_, ?_, ?_⟩, ⟨?_, ?_, ?_, ?_, ?_, ?_⟩, rfl, rfl⟩
  · decide +kernel
  · decide +kernel
  · exact rfl
  · intro x hx hn
    have h : ∀ x ∈ closedFields, x.1 ≠ "AckAck" := by decide +kernel
    exact absurd hn (h x hx)
  · exact fun h => absurd h (by decide)
  · exact fun h => absurd h (by decide)
  · decide +kernel
  · decide +kernel
  · exact rfl
  · intro x hx hn
    have h : ∀ x ∈ closedFields, x.1 = "CfgPrtUart" → x.2 = (0, "UartPortId") := by decide +kernel
    rw [h x hx hn]
    exact ⟨2, rfl, (port_codes 2).2.2.mpr (by decide)⟩
  · exact fun h => absurd h (by decide)
  · exact fun h => absurd h (by decide)

/-- Two messages with bytes in between, and what follows. -/
example (tail : Bytes) (ht : 8184 ≤ tail.length) :
    Junky 8176 (8176 + 8) ([0xb5, 0x00] ++ frame 0x05 0x01 [6, 1] ++ ([0x0d, 0x0a] ++
      frame 0x06 0x00 (2 :: List.replicate 19 0) ++ tail))
      [(0x05, 0x01, [6, 1]), (0x06, 0x00, 2 :: List.replicate 19 0)] := by
  refine .cons (by decide) ?_ (.cons (by decide) ?_ (.nil ht))
  · intro k hk c i p rest hp he
    have h2 : (frame c i p ++ rest).take 2 = [0xb5, 0x62] := rfl
    rw [← he] at h2
    have h3 : k = 0 ∨ k = 1 := by simp only [List.length_cons, List.length_nil] at hk; omega
    rcases h3 with rfl | rfl <;> exact absurd h2 (by simp)
  · intro k hk c i p rest hp he
    have h2 : (frame c i p ++ rest).take 2 = [0xb5, 0x62] := rfl
    rw [← he] at h2
    have h3 : k = 0 ∨ k = 1 := by simp only [List.length_cons, List.length_nil] at hk; omega
    rcases h3 with rfl | rfl <;> exact absurd h2 (by simp)

end Ublox.Props
