import Verif.Lemmas.Deliver
import Verif.Lemmas.Api
import Verif.Props.Types
import Verif.Props.ParserDecode

/-!
# C09, C21–C25, C46, C47: payload layouts, validation and dispatch

`Gen.allPackets` are all packet declarations of the crate, `Gen.recvPackets` those listed in
`define_recv_packets!`.
-/

namespace Ublox.Props

open Spec Parser

/-! ## C21 Accessors tile the payload -/

/-- **C21** The accessor of a field of fixed size returns the value denoted by the field's slot;
a mapped field has in addition the accessor `.._raw`, and its accessor is the conversion of that
raw value. -/
theorem c21_accessor {d : PackDesc} (hd : d ∈ Gen.allPackets) (hk : d.kind ≠ .send) {i : Nat}
    {f : FieldDesc} (hf : d.fields[i]? = some f) (ht : f.ty ≠ .tail) {payload : Bytes}
    (hl : total d.fields ≤ payload.length) :
    ∃ r : RawVal, r.ofTy f.ty = true ∧
      Denotes r ((payload.drop (start d.fields i)).take (width f.ty)) ∧
      (f.map = none → d.get f.getName payload = .ok (.raw r)) ∧
      (f.map ≠ none → d.getRaw f.getName payload = .ok r ∧
        d.get f.getName payload = f.convert r) := by
  have hwf := readable_wf d hd hk
  obtain ⟨r, h1, h2, h3, h4⟩ := get_sized hwf (names_nodup d hd) hf ht hl
  unfold fieldBytes at h2
  rw [if_neg ht] at h2
  refine ⟨r, h1, h2, ?_, fun hm => ⟨h4 hm, h3⟩⟩
  intro hm
  have hfw := PackDesc.wf_field hwf hf
  simp only [FieldDesc.wf, hm, Bool.and_eq_true, Option.isNone_iff_eq_none] at hfw
  rw [h3]
  unfold FieldDesc.convert
  rw [hm, hfw.2.2]
  rfl

example : Gen.navPvt_ ∈ Gen.allPackets ∧ Gen.navPvt_.kind ≠ .send ∧
    (∃ f, Gen.navPvt_.fields[3]? = some f ∧ f.ty ≠ .tail ∧ f.map = none) ∧
    total Gen.navPvt_.fields ≤ (List.replicate 92 (0 : UInt8)).length := by decide +kernel

/-- **C21** The slots start at offset 0, follow each other without gap or overlap, and together are
the whole fixed part of the payload; the declared length of a packet of fixed length is the length
of that part. -/
theorem c21_tiles {d : PackDesc} (hd : d ∈ Gen.allPackets) (payload : Bytes) :
    start d.fields 0 = 0 ∧
    (∀ (i : Nat) (f : FieldDesc), d.fields[i]? = some f →
      start d.fields (i + 1) = start d.fields i + width f.ty) ∧
    (d.fields.zipIdx.map fun x => (payload.drop (start d.fields x.2)).take (width x.1.ty)).flatten =
      payload.take (total d.fields) ∧
    (∀ n, d.payloadLen = .fixed n → total d.fields = n ∧ ∀ f ∈ d.fields, f.ty ≠ .tail) := by
  have hlen : ∀ d ∈ Gen.allPackets, d.payloadLen = .fixed (total d.fields) ∧
      (∀ f ∈ d.fields, f.ty ≠ .tail) ∨ d.payloadLen = .max d.maxPayloadLen := by decide +kernel
  refine ⟨start_zero _, fun i f hf => start_add_width hf, ?_, ?_⟩
  · have key : ∀ (fs : List FieldDesc) (pre : List FieldDesc),
        ((fs.zipIdx pre.length).map fun x =>
          (payload.drop (start (pre ++ fs) x.2)).take (width x.1.ty)).flatten =
          (payload.drop (total pre)).take (total fs) := by
      intro fs
      induction fs with
      | nil => intro pre; simp [total]
      | cons f fs ih =>
        intro pre
        have := ih (pre ++ [f])
        simp only [List.append_assoc, List.singleton_append, List.length_append,
          List.length_singleton] at this
        rw [List.zipIdx_cons, List.map_cons, List.flatten_cons, this, total_cons]
        have e1 : start (pre ++ f :: fs) pre.length = total pre := by
          unfold start; rw [List.take_left]
        have e2 : total (pre ++ [f]) = total pre + width f.ty := by simp [total]
        rw [e1, e2, ← List.drop_drop, List.take_add]
    have := key d.fields []
    simpa [total_nil] using this
  · intro n hn
    rcases hlen d hd with ⟨h1, h2⟩ | h1
    · rw [hn] at h1; exact ⟨(PayloadLen.fixed.inj h1).symm, h2⟩
    · rw [hn] at h1; cases h1

example : Gen.navPosLlh_ ∈ Gen.allPackets := by decide +kernel

/-- **C21** The value of an accessor of a field of fixed size does not depend on bytes outside its
slot. -/
theorem c21_local {d : PackDesc} (hd : d ∈ Gen.allPackets) (hk : d.kind ≠ .send) {i : Nat}
    {f : FieldDesc} (hf : d.fields[i]? = some f) (ht : f.ty ≠ .tail) {p q : Bytes}
    (hp : total d.fields ≤ p.length) (hq : total d.fields ≤ q.length)
    (h : (p.drop (start d.fields i)).take (width f.ty) =
      (q.drop (start d.fields i)).take (width f.ty)) :
    d.get f.getName p = d.get f.getName q ∧ d.getRaw f.getName p = d.getRaw f.getName q := by
  obtain ⟨r, h1, h2, h3, h4⟩ := c21_accessor hd hk hf ht hp
  obtain ⟨s, i1, i2, i3, i4⟩ := c21_accessor hd hk hf ht hq
  rw [h] at h2
  have : r = s := Denotes.unique h2 i2 h1 i1
  subst this
  cases hm : f.map with
  | none =>
    refine ⟨by rw [h3 hm, i3 hm], ?_⟩
    obtain ⟨sf, hg⟩ := getters_getElem? hf
    have hfind := find_getter (names_nodup d hd) hg
    simp only at hfind
    unfold PackDesc.getRaw
    rw [hfind]
    simp [Getter.runRaw, hm]
  | some c =>
    have hne : f.map ≠ none := by simp [hm]
    exact ⟨by rw [(h4 hne).2, (i4 hne).2], by rw [(h4 hne).1, (i4 hne).1]⟩

example : (([1, 2, 3] : Bytes).drop 1).take 1 = (([0, 2, 9] : Bytes).drop 1).take 1 := by decide

/-- **C21** The accessor of a last field of variable size is about everything behind the fixed
part. -/
theorem c21_tail {d : PackDesc} (hd : d ∈ Gen.allPackets) (hk : d.kind ≠ .send) {i : Nat}
    {f : FieldDesc} (hf : d.fields[i]? = some f) (ht : f.ty = .tail) (hs : f.sizeFn = none)
    {payload : Bytes} (hl : LenOk d payload) :
    start d.fields i = total d.fields ∧
    d.get f.getName payload =
      match f.map with
      | some c => c.convert f.mayFail (.bytes (payload.drop (total d.fields)))
      | none => .ok (.raw (.bytes (payload.drop (total d.fields)))) := by
  have htab : ∀ d ∈ Gen.allPackets, d.kind ≠ .send → ∀ x ∈ d.fields.zipIdx, x.1.ty = .tail →
      start d.fields x.2 = total d.fields := by decide +kernel
  have hst := htab d hd hk (f, i) (List.mem_zipIdx_iff_getElem?.mpr hf) ht
  simp only at hst
  obtain ⟨bs, h1, h2⟩ := get_tail (readable_wf d hd hk) (names_nodup d hd) hf ht hl
  rw [hs] at h1
  simp only [fieldBytes, if_pos ht, hst] at h1
  rw [h2, h1]
  exact ⟨hst, rfl⟩

example : ∃ f, Gen.navSat_.fields[4]? = some f ∧ f.ty = .tail ∧ f.sizeFn = none := by
  decide +kernel

/-- **C21** ESF-MEAS: the measurements are the announced number of words behind the 8 fixed bytes;
the calibration time tag is the word behind them if it is announced. -/
theorem c21_esf_meas {payload : Bytes} (hl : LenOk Gen.esfMeas_ payload) :
    Gen.esfMeas_.get "data" payload =
      .ok (.iter .esfMeas ((payload.drop 8).take (announcedSize payload .dataLen))) ∧
    (announcedSize payload .calibTagLen = 4 →
      ∃ w : UInt32, Gen.esfMeas_.get "calib_tag" payload = .ok (.optU32 (some w)) ∧
        w.toNat = leNat ((payload.drop (8 + announcedSize payload .dataLen)).take 4)) ∧
    (announcedSize payload .calibTagLen = 0 →
      Gen.esfMeas_.get "calib_tag" payload = .ok (.optU32 none)) := by
  have hwf : Gen.esfMeas_.wf = true := by decide +kernel
  have hn : (Gen.esfMeas_.fields.map FieldDesc.getName).Nodup := by decide +kernel
  have e1 : start Gen.esfMeas_.fields 3 = 8 := by decide +kernel
  have e2 : start Gen.esfMeas_.fields 4 = 8 := by decide +kernel
  have f1 : (((Gen.esfMeas_.fields.take 3).filter fun f => width f.ty == 0).filterMap (·.sizeFn)) =
      [] := by decide +kernel
  have f2 : (((Gen.esfMeas_.fields.take 4).filter fun f => width f.ty == 0).filterMap (·.sizeFn)) =
      [.dataLen] := by decide +kernel
  obtain ⟨bs, ⟨h1, -⟩, h2⟩ := get_tail (i := 3) hwf hn rfl rfl hl
  obtain ⟨cs, ⟨h3, h4⟩, h5⟩ := get_tail (i := 4) hwf hn rfl rfl hl
  simp only [dynBytes, e1, e2, f1, f2, List.map_nil, List.map_cons, List.sum_nil, List.sum_cons,
    Nat.add_zero] at h1 h3
  simp only [FieldDesc.getName, Option.getD_none, Conv.convert] at h2 h5
  refine ⟨by rw [h2, h1], ?_, ?_⟩
  · intro h
    rw [h] at h3 h4
    obtain ⟨a, b, c, d, rfl⟩ : ∃ a b c d, cs = [a, b, c, d] := by
      match cs, h4 with
      | [a, b, c, d], _ => exact ⟨a, b, c, d, rfl⟩
    refine ⟨u32FromLe a b c d, h5, ?_⟩
    rw [← h3, u32FromLe_toNat, leNat4]
  · intro h
    rw [h] at h4
    rw [h5, List.length_eq_zero_iff.mp h4]
    rfl

/-- One measurement and a calibration tag. -/
example : LenOk Gen.esfMeas_ [0, 0, 0, 0, 0x08, 0x08, 0, 0, 1, 2, 3, 4, 5, 6, 7, 8] ∧
    announcedSize [0, 0, 0, 0, 0x08, 0x08, 0, 0, 1, 2, 3, 4, 5, 6, 7, 8] .dataLen = 4 ∧
    announcedSize [0, 0, 0, 0, 0x08, 0x08, 0, 0, 1, 2, 3, 4, 5, 6, 7, 8] .calibTagLen = 4 := by
  refine ⟨?_, by decide +kernel, by decide +kernel⟩
  unfold LenOk
  decide +kernel

/-! ## C22 What `validate` decides -/

/-- **C22** `validate` never panics and accepts exactly the valid payloads; otherwise it reports the
wrong length together with the required one, or, if the length is right, the first field that is not
acceptable. -/
theorem c22_validate {d : PackDesc} (hd : d ∈ Gen.allPackets) (hk : d.kind ≠ .send)
    (payload : Bytes) :
    (∃ r, d.validate payload = .ok r) ∧
    (d.validate payload = .ok (.ok ()) ↔ Valid d payload) ∧
    (∀ n e g, d.validate payload = .ok (.error (.invalidPacketLen n e g)) ↔
      ¬ LenOk d payload ∧ n = d.name ∧ e = required d payload ∧ g = payload.length) ∧
    (∀ n m, d.validate payload = .ok (.error (.invalidField n m)) ↔
      LenOk d payload ∧ n = d.name ∧ ∃ i f, FirstInvalid d payload i f ∧ m = f.getName) ∧
    (∀ e, d.validate payload = .ok (.error e) →
      (∃ n e' g, e = .invalidPacketLen n e' g) ∨ ∃ n m, e = .invalidField n m) := by
  have hwf := readable_wf d hd hk
  have huniq : ∀ {i f j g}, FirstInvalid d payload i f → FirstInvalid d payload j g → f = g := by
    intro i f j g h1 h2
    rcases Nat.lt_trichotomy i j with h | h | h
    · exact absurd (h2.2.2 i f h h1.1) h1.2.1
    · subst h
      have := h1.1.symm.trans h2.1
      simpa using this
    · exact absurd (h1.2.2 j g h h2.1) h2.2.1
  refine ⟨validate_total hwf payload, validate_ok_iff hwf payload, ?_, ?_, ?_⟩
  · intro n e g
    rcases validate_cases hwf payload with ⟨h1, h2⟩ | ⟨h1, h2⟩ | ⟨i, f, h1, h2, h3⟩
    · rw [h2]; simp; exact fun h => absurd h1.1 h
    · rw [h2]; simp [h1, eq_comm]
    · rw [h3]; simp [h1]
  · intro n m
    rcases validate_cases hwf payload with ⟨h1, h2⟩ | ⟨h1, h2⟩ | ⟨i, f, h1, h2, h3⟩
    · rw [h2]; simp
      intro _ _ i f hf _
      exact hf.2.1 (h1.2 i f hf.1)
    · rw [h2]; simp [h1]
    · rw [h3]; simp only [Except.ok.injEq, Except.error.injEq, ParserError.invalidField.injEq]
      constructor
      · rintro ⟨rfl, rfl⟩; exact ⟨h1, rfl, i, f, h2, rfl⟩
      · rintro ⟨-, rfl, j, g, h4, rfl⟩
        exact ⟨rfl, by rw [huniq h2 h4]⟩
  · intro e he
    rcases validate_cases hwf payload with ⟨h1, h2⟩ | ⟨h1, h2⟩ | ⟨i, f, h1, h2, h3⟩
    · rw [h2] at he; simp at he
    · rw [h2] at he; simp at he; exact .inl ⟨_, _, _, he.symm⟩
    · rw [h3] at he; simp at he; exact .inr ⟨_, _, he.symm⟩

example : Gen.navSat_.validate (List.replicate 19 0) = .ok (.error (.invalidField "NavSat" "svs")) ∧
    Gen.navSat_.validate (List.replicate 7 0) = .ok (.error (.invalidPacketLen "NavSat" 8 7)) ∧
    Gen.navSat_.validate (List.replicate 32 0) = .ok (.ok ()) := by decide +kernel

/-! ## C23 Dispatch -/

/-- **C23** Dispatch never panics and never fails; the packet has the class, the id and the payload
of the frame; it is the first listed type with this class and id whose validation accepts the
payload, and unknown if there is none. -/
theorem c23_dispatch (cls id : UInt8) (payload : Bytes) :
    ∃ p : PacketRef, matchPacket cls id payload = .ok (.ok p) ∧
      p.classAndMsgId = (cls, id) ∧ p.payload = payload ∧
      match p with
      | .known d _ => ∃ pre post, Gen.recvPackets = pre ++ d :: post ∧
          d.cls = cls ∧ d.id = id ∧ Valid d payload ∧
          ∀ e ∈ pre, e.cls = cls → e.id = id → ¬ Valid e payload
      | .unknown _ _ _ => ∀ e ∈ Gen.recvPackets, e.cls = cls → e.id = id → ¬ Valid e payload := by
  rcases matchPacketIn_eq cls id payload Gen.recvPackets (fun _ h => recv_wf h) with
    ⟨h1, h⟩ | ⟨pre, d, post, h1, rfl, rfl, h4, h5, h⟩
  · exact ⟨_, h, rfl, rfl, fun e he h2 h3 => h1 e he h2.symm h3.symm⟩
  · exact ⟨_, h, rfl, rfl, pre, post, h1, rfl, rfl, h4, fun e he h2 h3 => h5 e he h2.symm h3.symm⟩

/-- The three kinds of outcome occur. -/
example : matchPacket 1 2 (List.replicate 28 0) =
      .ok (.ok (.known Gen.navPosLlh_ (List.replicate 28 0))) ∧
    matchPacket 1 2 (List.replicate 27 0) = .ok (.ok (.unknown (List.replicate 27 0) 1 2)) ∧
    matchPacket 0x77 2 [1] = .ok (.ok (.unknown [1] 0x77 2)) := by decide +kernel

/-! ## C24 CFG-PRT -/

/-- **C24** The port id, the first byte, decides how a CFG-PRT payload of 20 bytes is delivered. -/
theorem c24_cfg_prt (b : UInt8) (rest : Bytes) (hl : rest.length = 19) :
    matchPacket 0x06 0x00 (b :: rest) = .ok (.ok (
      if b = 0 then .known Gen.cfgPrtI2c_ (b :: rest)
      else if b = 4 then .known Gen.cfgPrtSpi_ (b :: rest)
      else if b = 1 ∨ b = 2 ∨ b = 3 then .known Gen.cfgPrtUart_ (b :: rest)
      else .unknown (b :: rest) 0x06 0x00)) := by
  have hl' : (b :: rest).length = 20 := by simp [hl]
  have w1 : Gen.cfgPrtI2c_.wf = true := by decide +kernel
  have w2 : Gen.cfgPrtSpi_.wf = true := by decide +kernel
  have w3 : Gen.cfgPrtUart_.wf = true := by decide +kernel
  have v1 : Valid Gen.cfgPrtI2c_ (b :: rest) ↔ b = 0 := by
    have hfall : fallible Gen.cfgPrtI2c_ = [({ name := "portid", ty := .u8, map := some (.enum Gen.i2cPortId_), mayFail := true }, 0)] := by decide +kernel
    rw [valid_first_enum 20 hfall rfl rfl (by decide +kernel) (by decide +kernel)
      (by decide +kernel) hl']
    simp [Gen.i2cPortId_]
  have v2 : Valid Gen.cfgPrtSpi_ (b :: rest) ↔ b = 4 := by
    have hfall : fallible Gen.cfgPrtSpi_ = [({ name := "portid", ty := .u8, map := some (.enum Gen.spiPortId_), mayFail := true }, 0)] := by decide +kernel
    rw [valid_first_enum 20 hfall rfl rfl (by decide +kernel) (by decide +kernel)
      (by decide +kernel) hl']
    simp [Gen.spiPortId_]
  have v3 : Valid Gen.cfgPrtUart_ (b :: rest) ↔ b = 1 ∨ b = 2 ∨ b = 3 := by
    have hfall : fallible Gen.cfgPrtUart_ = [({ name := "portid", ty := .u8, map := some (.enum Gen.uartPortId_), mayFail := true }, 0)] := by decide +kernel
    rw [valid_first_enum 20 hfall rfl rfl (by decide +kernel) (by decide +kernel)
      (by decide +kernel) hl']
    simp [Gen.uartPortId_]
  unfold matchPacket
  rw [matchPacketIn_filter, recv_cfgPrt]
  have s1 := matchPacketIn_cons (cls := 6) (id := 0) (payload := b :: rest)
    (ds := [Gen.cfgPrtSpi_, Gen.cfgPrtUart_]) w1 rfl rfl
  have s2 := matchPacketIn_cons (cls := 6) (id := 0) (payload := b :: rest)
    (ds := [Gen.cfgPrtUart_]) w2 rfl rfl
  have s3 := matchPacketIn_cons (cls := 6) (id := 0) (payload := b :: rest)
    (ds := []) w3 rfl rfl
  by_cases h1 : b = 0
  · rw [if_pos h1, s1.1 (v1.mpr h1)]
  · rw [if_neg h1, s1.2 (fun h => h1 (v1.mp h))]
    by_cases h2 : b = 4
    · rw [if_pos h2, s2.1 (v2.mpr h2)]
    · rw [if_neg h2, s2.2 (fun h => h2 (v2.mp h))]
      by_cases h3 : b = 1 ∨ b = 2 ∨ b = 3
      · rw [if_pos h3, s3.1 (v3.mpr h3)]
      · rw [if_neg h3, s3.2 (fun h => h3 (v3.mp h))]
        rfl

example : (List.replicate 19 (0xff : UInt8)).length = 19 := rfl

/-! ## C25 Accessors of delivered packets -/

theorem delivered {cls id : UInt8} {payload p : Bytes} {d : PackDesc}
    (h : matchPacket cls id payload = .ok (.ok (.known d p))) :
    d ∈ Gen.recvPackets ∧ Valid d p := by
  obtain ⟨q, h1, h2, h3, h4⟩ := c23_dispatch cls id payload
  rw [h] at h1
  simp only [Except.ok.injEq] at h1
  subst h1
  simp only [PacketRef.payload] at h3
  subst h3
  obtain ⟨pre, post, h5, -, -, h6, -⟩ := h4
  exact ⟨by rw [h5]; simp, h6⟩

/-- The `mode` word of a CFG-PRT payload (bytes 4..7) that can be decoded: 7 or 8 data bits, a parity
with a meaning. -/
def UartWordOk (payload : Bytes) : Prop :=
  let w := leNat ((payload.drop 4).take 4)
  (dataBitsOf (field w 6 2)).isSome ∧ (parityOf (field w 9 3)).isSome ∧
    (stopBitsOf (field w 12 2)).isSome

/-- **C25**, partial: no accessor of a delivered packet panics, neither do the `.._raw` accessors,
`Debug` and serialization, except for the `mode` of a `CfgPrtUart` whose mode word has no meaning,
see `c25_uart_mode_panics`. -/
theorem c25_accessors_partial {cls id : UInt8} {payload p : Bytes} {d : PackDesc}
    (h : matchPacket cls id payload = .ok (.ok (.known d p)))
    (hu : d = Gen.cfgPrtUart_ → UartWordOk p) :
    (∀ f ∈ d.fields, ∃ v, d.get f.getName p = .ok v) ∧
    (∀ f ∈ d.fields, f.map ≠ none → f.ty ≠ .tail → ∃ r, d.getRaw f.getName p = .ok r) ∧
    (∃ kvs, (PacketRef.known d p).serialize = .ok kvs) ∧
    (∃ kvs, d.debugFields p = .ok kvs) := by
  obtain ⟨hd, hv⟩ := delivered h
  have hwf := recv_wf hd
  have hall := (recv_readable d hd).1
  have hn := names_nodup d hall
  have hget : ∀ f ∈ d.fields, ∃ v, d.get f.getName p = .ok v := by
    intro f hf
    obtain ⟨i, hi⟩ := List.mem_iff_getElem?.mp hf
    refine get_ok hwf hn hv hi fun hm w hw => ?_
    obtain ⟨rfl, hname⟩ := uartMode_fields d hall f hf hm
    have hok := hu rfl
    rw [hname] at hw
    have hl : total Gen.cfgPrtUart_.fields ≤ p.length := lenOk_total_le hv.1
    obtain ⟨r, h1, h2, -, h4⟩ := get_sized (i := 3)
      (f := { name := "mode", ty := .u32, map := some (.uartMode) }) hwf hn rfl (by simp) hl
    have h4 := h4 (by simp)
    simp only [FieldDesc.getName, Option.getD_none] at h4
    rw [hw] at h4
    simp only [Except.ok.injEq] at h4
    subst h4
    have e1 : start Gen.cfgPrtUart_.fields 3 = 4 := by decide +kernel
    simp only [fieldBytes, e1, width] at h2
    rw [if_neg (by simp)] at h2
    have hwn : w.toNat = leNat ((p.drop 4).take 4) := h2.2
    rw [c30_uart_from, hwn]
    obtain ⟨k1, k2, k3⟩ := hok
    obtain ⟨a, ha⟩ := Option.isSome_iff_exists.mp k1
    obtain ⟨b, hb⟩ := Option.isSome_iff_exists.mp k2
    obtain ⟨c, hc⟩ := Option.isSome_iff_exists.mp k3
    rw [ha, hb, hc]
    exact ⟨_, rfl⟩
  have hser : ∃ kvs, d.serializeFields p d.getters = .ok kvs := by
    obtain ⟨vs, h1, -⟩ := serializeFields_ok (d := d) (payload := p) d.getters (by
      intro g hg
      obtain ⟨i, hi⟩ := List.mem_iff_getElem?.mp hg
      rw [Getter.run_eq_get hn hi]
      exact hget _ (List.mem_of_getElem? (getters_of hi).1))
    exact ⟨_, h1⟩
  refine ⟨hget, ?_, ?_, hser⟩
  · intro f hf hm ht
    obtain ⟨i, hi⟩ := List.mem_iff_getElem?.mp hf
    obtain ⟨r, -, -, -, h4⟩ := get_sized hwf hn hi ht (lenOk_total_le hv.1)
    exact ⟨r, h4 hm⟩
  · obtain ⟨kvs, hk⟩ := hser
    simp only [PacketRef.serialize, hk]
    exact ⟨_, rfl⟩

example : matchPacket 0x06 0x00 (1 :: List.replicate 3 0 ++ [0xc0, 0x08] ++ List.replicate 14 0) =
    .ok (.ok (.known Gen.cfgPrtUart_ (1 :: List.replicate 3 0 ++ [0xc0, 0x08] ++ List.replicate 14 0)))
    ∧ UartWordOk (1 :: List.replicate 3 0 ++ [0xc0, 0x08] ++ List.replicate 14 0) := by
  constructor
  · decide +kernel
  · unfold UartWordOk; decide +kernel

/-- **C25** is false: a CFG-PRT frame for a UART with 5 data bits is delivered, and reading its mode,
printing it or serializing it panics. -/
theorem c25_uart_mode_panics :
    ∃ payload : Bytes, payload.length = 20 ∧
      matchPacket 0x06 0x00 payload = .ok (.ok (.known Gen.cfgPrtUart_ payload)) ∧
      Gen.cfgPrtUart_.get "mode" payload = .error .explicit ∧
      (PacketRef.known Gen.cfgPrtUart_ payload).serialize = .error .explicit ∧
      Gen.cfgPrtUart_.debugFields payload = .error .explicit :=
  ⟨1 :: List.replicate 19 0, by decide +kernel⟩

/-- **C25** The exception is exact: whenever the mode word of a delivered `CfgPrtUart` has no meaning,
the accessor `mode`, `Debug` and serialization panic. -/
theorem c25_uart_mode_exact {cls id : UInt8} {payload p : Bytes}
    (h : matchPacket cls id payload = .ok (.ok (.known Gen.cfgPrtUart_ p))) (hu : ¬ UartWordOk p) :
    Gen.cfgPrtUart_.get "mode" p = .error .explicit ∧
    (∃ q, (PacketRef.known Gen.cfgPrtUart_ p).serialize = .error q) ∧
    (∃ q, Gen.cfgPrtUart_.debugFields p = .error q) := by
  obtain ⟨hd, hv⟩ := delivered h
  have hwf := recv_wf hd
  have hn := names_nodup _ (recv_readable _ hd).1
  have hl : total Gen.cfgPrtUart_.fields ≤ p.length := lenOk_total_le hv.1
  obtain ⟨r, h1, h2, h3, -⟩ := get_sized (i := 3)
    (f := { name := "mode", ty := .u32, map := some (.uartMode) }) hwf hn rfl (by simp) hl
  have e1 : start Gen.cfgPrtUart_.fields 3 = 4 := by decide +kernel
  simp only [fieldBytes, e1, width] at h2
  rw [if_neg (by simp)] at h2
  cases r <;> simp [RawVal.ofTy] at h1
  rename_i w
  have hwn : w.toNat = leNat ((p.drop 4).take 4) := h2.2
  have hmode : Gen.cfgPrtUart_.get "mode" p = .error .explicit := by
    simp only [FieldDesc.getName, Option.getD_none] at h3
    rw [h3]
    have hf : UartMode.from w = .error .explicit := by
      rw [c30_uart_from, hwn]
      unfold UartWordOk at hu
      simp only at hu
      split
      · rename_i a b c ha hb hc
        exact absurd ⟨by rw [ha]; rfl, by rw [hb]; rfl, by rw [hc]; rfl⟩ hu
      · rfl
    simp only [FieldDesc.convert, Conv.convert, hf]
    rfl
  obtain ⟨sf, hg⟩ := getters_getElem? (d := Gen.cfgPrtUart_) (i := 3)
    (f := { name := "mode", ty := .u32, map := some (.uartMode) }) rfl
  obtain ⟨q, hq⟩ := serializeFields_error (d := Gen.cfgPrtUart_) (payload := p)
    (by rw [Getter.run_eq_get hn hg]; exact hmode) Gen.cfgPrtUart_.getters (List.mem_of_getElem? hg)
  refine ⟨hmode, ⟨q, ?_⟩, q, hq⟩
  simp only [PacketRef.serialize, hq]
  rfl

example : matchPacket 0x06 0x00 (1 :: List.replicate 19 0) =
    .ok (.ok (.known Gen.cfgPrtUart_ (1 :: List.replicate 19 0))) ∧
    ¬ UartWordOk (1 :: List.replicate 19 0) := by
  constructor
  · decide +kernel
  · unfold UartWordOk; decide +kernel

/-! ## C09 Only framing errors -/

/-- The answer to a well-formed frame: a packet with the class, id and payload of the frame, an
unknown one if no listed type accepts the payload.  The answers to other reports are framing
errors. -/
def AnswerOk (ev : Ev) (r : Except ParserError PacketRef) : Prop :=
  match ev with
  | .packet c i payload => ∃ p, r = .ok p ∧ p.classAndMsgId = (c, i) ∧ p.payload = payload ∧
      ((∀ d ∈ Gen.recvPackets, d.cls = c → d.id = i → ¬ Valid d payload) → p = .unknown payload c i)
  | .badChecksum a b => r = .error (.invalidChecksum (ckNumber a) (ckNumber b))
  | .tooLarge n => r = .error (.outOfMemory (n + 2))

theorem answerOk_report (ev : Ev) : AnswerOk ev (report crateDispatch.matchPacket ev) := by
  cases ev with
  | packet c i payload =>
    obtain ⟨p, h1, h2, h3, h4⟩ := c23_dispatch c i payload
    rw [crateDispatch_eq] at h1
    simp only [Except.ok.injEq] at h1
    refine ⟨p, h1, h2, h3, fun hn => ?_⟩
    cases p with
    | known d q =>
      obtain ⟨pre, post, h5, h6, h7, h8, -⟩ := h4
      exact absurd h8 (hn d (by rw [h5]; simp) h6 h7)
    | unknown q c' i' =>
      simp only [PacketRef.classAndMsgId, PacketRef.payload, Prod.mk.injEq] at h2 h3
      rw [h2.1, h2.2, h3]
  | badChecksum a b => rfl
  | tooLarge n => rfl

theorem only_framing_errors {evs : List Ev} {e : ParserError}
    (h : Except.error e ∈ evs.map (report crateDispatch.matchPacket)) :
    (∃ x y, e = .invalidChecksum x y) ∨ ∃ n, e = .outOfMemory n := by
  obtain ⟨ev, -, h⟩ := List.mem_map.mp h
  have := answerOk_report ev
  rw [h] at this
  cases ev with
  | packet c i payload => obtain ⟨p, hp, -⟩ := this; cases hp
  | badChecksum a b => exact .inl ⟨_, _, Except.error.inj this⟩
  | tooLarge n => exact .inr ⟨_, Except.error.inj this⟩

/-- **C09**, growable buffer, iterators exhausted: the answers correspond one to one to the reports
of the reference decoder, and every well-formed frame is delivered as a packet. -/
theorem c09_vec_every_frame_delivered {M : Nat} (hM : 8176 + 8 ≤ M) (h : List (Bytes × Nat))
    (hc : ∀ x ∈ h, x.1.length + 8176 + 8 ≤ M / 2)
    {rss q} (hq : session M crateDispatch (vecParser M) h = some (.ok (rss, q)))
    (he : Exhausted rss) :
    (results rss).length = (decode 8176 (fedBytes h)).1.length ∧
    ∀ (i : Nat) ev r, (decode 8176 (fedBytes h)).1[i]? = some ev → (results rss)[i]? = some r →
      AnswerOk ev r := by
  have hm := crate_max
  obtain ⟨h1, -⟩ := c05_vec_reference_decoder (D := crateDispatch) (by omega) h
    (fun x hx => by have := hc x hx; omega) hq he
  rw [hm] at h1
  rw [h1]
  refine ⟨by simp, ?_⟩
  intro i ev r hev hr
  rw [List.getElem?_map, hev] at hr
  simp only [Option.map_some, Option.some.injEq] at hr
  rw [← hr]
  exact answerOk_report ev

/-- A frame with an invalid payload for its type is in the stream. -/
example : (decode 8176 (frame 1 2 [7])).1 = [.packet 1 2 [7]] := by
  have := c05_next_frame_found 8176 [] (by simp) 1 2 [7] [] (by decide) (by decide)
  simp only [List.nil_append, List.append_nil] at this
  rw [this, decode_wait (by rw [scan.eq_def])]

/-- **C09**, growable buffer, any use of the iterators: no other errors than framing errors. -/
theorem c09_vec_only_framing_errors {M : Nat} (hM : 8176 + 8 ≤ M) (h : List (Bytes × Nat))
    (hv : VecHolds M crateDispatch h)
    {rss q} (hq : session M crateDispatch (vecParser M) h = some (.ok (rss, q))) {e : ParserError}
    (he : HasError rss e) :
    (∃ x y, e = .invalidChecksum x y) ∨ ∃ n, e = .outOfMemory n := by
  have hm := crate_max
  obtain ⟨evs, h1, -⟩ := c03_vec_packets_embedded (D := crateDispatch) (by omega) h hv hq
  unfold HasError at he
  rw [h1] at he
  exact only_framing_errors he

/-- **C09**, fixed buffers of any size, any use of the iterators. -/
theorem c09_flb_only_framing_errors {M : Nat} (hM : 8176 + 8 ≤ M) (backing : Bytes)
    (hb : backing.length ≤ M / 2) (h : List (Bytes × Nat)) (hs : Slices M h)
    {rss q} (hq : session M crateDispatch (flbParser M backing) h = some (.ok (rss, q)))
    {e : ParserError} (he : HasError rss e) :
    (∃ x y, e = .invalidChecksum x y) ∨ ∃ n, e = .outOfMemory n := by
  have hm := crate_max
  obtain ⟨evs, h1, -⟩ := c49_flb_frames_sublist_partial (D := crateDispatch) (by omega) backing hb h
    hs hq
  unfold HasError at he
  rw [h1] at he
  exact only_framing_errors he

/-! ## C46 Every packet type is deliverable -/

/-- **C46** The limit is the largest maximum of the listed packet types. -/
theorem c46_limit : (∀ d ∈ Gen.recvPackets, d.maxPayloadLen ≤ MAX_PAYLOAD_LEN) ∧
    ∃ d ∈ Gen.recvPackets, d.maxPayloadLen = MAX_PAYLOAD_LEN := by decide +kernel

theorem packet_bounded {evs : List Ev} {n : Nat} (hb : ∀ f ∈ packets evs, f.2.2.length ≤ n)
    {p : PacketRef} (hp : .ok p ∈ evs.map (report crateDispatch.matchPacket)) :
    p.payload.length ≤ n := by
  induction evs with
  | nil => simp at hp
  | cons ev evs ih =>
    rw [List.map_cons, List.mem_cons] at hp
    rcases hp with hp | hp
    · have := answerOk_report ev
      rw [← hp] at this
      cases ev with
      | packet c i payload =>
        obtain ⟨p', h1, -, h2, -⟩ := this
        cases h1
        rw [h2]
        exact hb (c, i, payload) (by simp [packets])
      | badChecksum a b => cases this
      | tooLarge n => cases this
    · refine ih (fun f hf => hb f ?_) hp
      cases ev <;> simp only [packets] <;> first | exact hf | exact List.mem_cons_of_mem _ hf

/-- **C46** Frames above the limit are not delivered. -/
theorem c46_vec_bounded {M : Nat} (hM : MAX_PAYLOAD_LEN + 8 ≤ M) (h : List (Bytes × Nat))
    (hv : VecHolds M crateDispatch h)
    {rss q} (hq : session M crateDispatch (vecParser M) h = some (.ok (rss, q))) {p : PacketRef}
    (hp : .ok p ∈ results rss) : p.payload.length ≤ MAX_PAYLOAD_LEN := by
  obtain ⟨evs, h1, h2⟩ := c03_vec_packets_embedded (D := crateDispatch) hM h hv hq
  have hb : ∀ {s fs}, Embeds crateDispatch.maxPayloadLen s fs →
      ∀ f ∈ fs, f.2.2.length ≤ MAX_PAYLOAD_LEN := by
    intro s fs he
    induction he with
    | nil => simp
    | cons hl _ ih =>
      intro f hf
      rcases List.mem_cons.mp hf with rfl | hf
      · exact hl
      · exact ih f hf
  rw [h1] at hp
  exact packet_bounded (hb h2) hp

/-- **C46** The same for fixed buffers. -/
theorem c46_flb_bounded {M : Nat} (hM : MAX_PAYLOAD_LEN + 8 ≤ M) (backing : Bytes)
    (hb : backing.length ≤ M / 2) (h : List (Bytes × Nat)) (hs : Slices M h)
    {rss q} (hq : session M crateDispatch (flbParser M backing) h = some (.ok (rss, q)))
    {p : PacketRef} (hp : .ok p ∈ results rss) : p.payload.length ≤ MAX_PAYLOAD_LEN := by
  obtain ⟨evs, h1, h2, -⟩ := c49_flb_frames_sublist_partial (D := crateDispatch) hM backing hb h hs hq
  rw [h1] at hp
  exact packet_bounded h2 hp

/-- **C46**, partial: every listed packet type except `MgaGpsEPH` is delivered for some payload
within the limit.  `MgaGpsEPH`: see `c46_eph_shadowed`. -/
theorem c46_deliverable_partial {d : PackDesc} (hd : d ∈ Gen.recvPackets)
    (hn : d.name ≠ "MgaGpsEPH") :
    ∃ payload : Bytes, payload.length ≤ MAX_PAYLOAD_LEN ∧
      matchPacket d.cls d.id payload = .ok (.ok (.known d payload)) := by
  obtain ⟨h1, h2⟩ := smallest_delivered d hd hn
  exact ⟨smallest d, by rw [show MAX_PAYLOAD_LEN = 8176 from crate_max]; exact h2, h1⟩

example : Gen.navSat_ ∈ Gen.recvPackets ∧ Gen.navSat_.name ≠ "MgaGpsEPH" := by decide +kernel

/-- **C46** is false: `MgaGpsEPH` is listed behind `MgaGpsEph`, which has the same class, id and
length: no payload is ever delivered as `MgaGpsEPH`. -/
theorem c46_eph_shadowed : Gen.mgaGpsEPH_ ∈ Gen.recvPackets ∧
    ∀ (cls id : UInt8) (payload p : Bytes),
      matchPacket cls id payload ≠ .ok (.ok (.known Gen.mgaGpsEPH_ p)) := by
  refine ⟨by decide +kernel, ?_⟩
  intro cls id payload p h
  obtain ⟨q, h1, h2, h3, h4⟩ := c23_dispatch cls id payload
  rw [h] at h1
  simp only [Except.ok.injEq] at h1
  subst h1
  obtain ⟨pre, post, h5, h6, h7, h8, h9⟩ := h4
  have hpos : ∀ (pre post : List PackDesc), Gen.recvPackets = pre ++ Gen.mgaGpsEPH_ :: post →
      Gen.mgaGpsEph_ ∈ pre := by
    intro pre post he
    have hidx : Gen.recvPackets.idxOf Gen.mgaGpsEph_ < Gen.recvPackets.idxOf Gen.mgaGpsEPH_ := by
      decide +kernel
    rw [he] at hidx
    have hle : (pre ++ Gen.mgaGpsEPH_ :: post).idxOf Gen.mgaGpsEPH_ ≤ pre.length := by
      rw [List.idxOf_append]
      split
      · exact Nat.le_of_lt (List.idxOf_lt_length_iff.mpr ‹_›)
      · simp
    apply Classical.byContradiction
    intro hn
    rw [List.idxOf_append, if_neg hn] at hidx
    omega
  have hmem := hpos pre post h5
  refine h9 _ hmem ?_ ?_ ?_
  · rw [← h6]; decide +kernel
  · rw [← h7]; decide +kernel
  · rw [valid_iff] at h8 ⊢
    have f1 : fallible Gen.mgaGpsEph_ = [] := by decide +kernel
    have l1 : LenOk Gen.mgaGpsEph_ payload ↔ payload.length = 68 := by
      have e1 : Gen.mgaGpsEph_.fields.any (fun f => f.ty == .tail) = false := by decide +kernel
      have e2 : total Gen.mgaGpsEph_.fields = 68 := by decide +kernel
      have e3 : Gen.mgaGpsEph_.fields.filterMap (·.sizeFn) = [] := by decide +kernel
      unfold LenOk required
      rw [e1, e2, e3]
      simp
    have l2 : LenOk Gen.mgaGpsEPH_ payload ↔ payload.length = 68 := by
      have e1 : Gen.mgaGpsEPH_.fields.any (fun f => f.ty == .tail) = false := by decide +kernel
      have e2 : total Gen.mgaGpsEPH_.fields = 68 := by decide +kernel
      have e3 : Gen.mgaGpsEPH_.fields.filterMap (·.sizeFn) = [] := by decide +kernel
      unfold LenOk required
      rw [e1, e2, e3]
      simp
    rw [f1]
    exact ⟨l1.mpr (l2.mp h8.1), by simp⟩

/-- **C46** is false for the declarations that are meant to be received but are missing in the list:
frames with valid payloads for `CfgInf` and `CfgNavX5` are delivered as unknown. -/
theorem c46_unlisted : ∀ d ∈ [Gen.cfgInf_, Gen.cfgNavX5_],
    d ∈ Gen.allPackets ∧ d.kind = .recvSend ∧
    ∀ payload, matchPacket d.cls d.id payload = .ok (.ok (.unknown payload d.cls d.id)) := by
  intro d hd
  have h1 : ∀ d ∈ [Gen.cfgInf_, Gen.cfgNavX5_], d ∈ Gen.allPackets ∧ d.kind = .recvSend ∧
      (Gen.recvPackets.filter fun e => decide (d.cls = e.cls ∧ d.id = e.id)) = [] := by
    decide +kernel
  obtain ⟨h2, h3, h4⟩ := h1 d hd
  refine ⟨h2, h3, fun payload => ?_⟩
  unfold matchPacket
  rw [matchPacketIn_filter, h4]
  rfl

/-- **C46**, exactly: of all packets declared for receiving, those that some payload is delivered as
are all except `MgaGpsEPH`, `CfgInf` and `CfgNavX5` (and the two declarations `NavSatSvInfo` and
`RxmRawxInfo`, which describe the blocks inside NAV-SAT and RXM-RAWX and not messages). -/
theorem c46_deliverable_iff {d : PackDesc} (hd : d ∈ Gen.allPackets) (hk : d.kind ≠ .send) :
    (∃ (cls id : UInt8) (payload p : Bytes), payload.length ≤ MAX_PAYLOAD_LEN ∧
      matchPacket cls id payload = .ok (.ok (.known d p))) ↔
    d.name ∉ ["MgaGpsEPH", "CfgInf", "CfgNavX5", "NavSatSvInfo", "RxmRawxInfo"] := by
  have hlist : ∀ d ∈ Gen.allPackets, d.kind ≠ .send →
      d.name ∉ ["MgaGpsEPH", "CfgInf", "CfgNavX5", "NavSatSvInfo", "RxmRawxInfo"] →
      d ∈ Gen.recvPackets ∧ d.name ≠ "MgaGpsEPH" := by
    decide +kernel
  have hnot : ∀ d ∈ Gen.allPackets, d.kind ≠ .send →
      d.name ∈ ["MgaGpsEPH", "CfgInf", "CfgNavX5", "NavSatSvInfo", "RxmRawxInfo"] →
      d = Gen.mgaGpsEPH_ ∨ d ∉ Gen.recvPackets := by
    decide +kernel
  constructor
  · rintro ⟨cls, id, payload, p, _, h⟩ hn
    rcases hnot d hd hk hn with rfl | hr
    · exact c46_eph_shadowed.2 cls id payload p h
    · obtain ⟨q, h1, h2, h3, h4⟩ := c23_dispatch cls id payload
      rw [h] at h1
      simp only [Except.ok.injEq] at h1
      subst h1
      obtain ⟨pre, post, h5, _⟩ := h4
      exact hr (by rw [h5]; simp)
  · intro hn
    obtain ⟨h1, h2⟩ := hlist d hd hk hn
    obtain ⟨payload, h3, h4⟩ := c46_deliverable_partial h1 h2
    exact ⟨_, _, payload, payload, h3, h4⟩

example : Gen.navSat_ ∈ Gen.allPackets ∧ Gen.navSat_.kind ≠ .send ∧
    Gen.cfgInf_ ∈ Gen.allPackets ∧ Gen.cfgInf_.kind ≠ .send := by decide +kernel

/-! ## C47 Serialization -/

/-- **C47** A delivered packet is serialized as its class, its id and then one entry per field in
declaration order with the value of the accessor (if the accessors return: see
`c25_accessors_partial`). -/
theorem c47_entries {cls id : UInt8} {payload p : Bytes} {d : PackDesc}
    (h : matchPacket cls id payload = .ok (.ok (.known d p)))
    (hu : d = Gen.cfgPrtUart_ → UartWordOk p) :
    ∃ vs : List Val, vs.length = d.fields.length ∧
      (PacketRef.known d p).serialize = .ok
        (("class", .raw (.u8 cls)) :: ("msg_id", .raw (.u8 id)) ::
          (d.fields.map FieldDesc.name).zip vs) ∧
      ∀ (i : Nat) (f : FieldDesc), d.fields[i]? = some f →
        ∃ v, vs[i]? = some v ∧ d.get f.getName p = .ok v := by
  obtain ⟨hget, -, -, -⟩ := c25_accessors_partial h hu
  obtain ⟨hd, hv⟩ := delivered h
  have hn := names_nodup d (recv_readable d hd).1
  obtain ⟨vs, h1, h2, h3⟩ := serializeFields_ok (d := d) (payload := p) d.getters (by
    intro g hg
    obtain ⟨i, hi⟩ := List.mem_iff_getElem?.mp hg
    rw [Getter.run_eq_get hn hi]
    exact hget _ (List.mem_of_getElem? (getters_of hi).1))
  obtain ⟨q, k1, k2, -, -⟩ := c23_dispatch cls id payload
  rw [h] at k1
  simp only [Except.ok.injEq] at k1
  subst k1
  simp only [PacketRef.classAndMsgId, Prod.mk.injEq] at k2
  refine ⟨vs, by rw [h2, getters_length], ?_, ?_⟩
  · simp only [PacketRef.serialize, h1, Except.ok_bind, k2.1, k2.2]
    have : d.getters.map (·.field.name) = d.fields.map FieldDesc.name := by
      have e := genGetters_map_field d.fields 0 []
      conv => rhs; rw [← e]
      rw [List.map_map]; rfl
    rw [this]
    rfl
  · intro i f hf
    obtain ⟨sf, hg⟩ := getters_getElem? hf
    obtain ⟨v, h4, h5⟩ := h3 i _ hg
    rw [Getter.run_eq_get hn hg] at h5
    exact ⟨v, h4, h5⟩

/-- **C47**, partial: the keys are distinct, except for three packet types. -/
theorem c47_distinct_partial {cls id : UInt8} {payload p : Bytes} {d : PackDesc}
    (h : matchPacket cls id payload = .ok (.ok (.known d p)))
    (hu : d = Gen.cfgPrtUart_ → UartWordOk p)
    (h1 : d.name ≠ "AckAck") (h2 : d.name ≠ "AckNak") (h3 : d.name ≠ "MgaAck")
    {kvs : List (String × Val)} (hk : (PacketRef.known d p).serialize = .ok kvs) :
    kvs.map Prod.fst = "class" :: "msg_id" :: d.fields.map FieldDesc.name ∧
      (kvs.map Prod.fst).Nodup := by
  obtain ⟨vs, h4, h5, -⟩ := c47_entries h hu
  rw [hk] at h5
  simp only [Except.ok.injEq] at h5
  obtain ⟨hd, -⟩ := delivered h
  obtain ⟨hall, hkind⟩ := recv_readable d hd
  have e : kvs.map Prod.fst = "class" :: "msg_id" :: d.fields.map FieldDesc.name := by
    rw [h5, List.map_cons, List.map_cons, List.map_fst_zip (by simp [h4])]
  rw [e]
  exact ⟨rfl, serialize_names d hall h1 h2 h3 hkind⟩

example : matchPacket 1 2 (List.replicate 28 0) =
    .ok (.ok (.known Gen.navPosLlh_ (List.replicate 28 0))) ∧ Gen.navPosLlh_ ≠ Gen.cfgPrtUart_ := by
  decide +kernel

/-- **C47** The exception is exact: whatever packet is delivered and serialized, its keys are distinct
if and only if it is not one of the three. -/
theorem c47_distinct_iff {cls id : UInt8} {payload p : Bytes} {d : PackDesc}
    (h : matchPacket cls id payload = .ok (.ok (.known d p)))
    {kvs : List (String × Val)} (hk : (PacketRef.known d p).serialize = .ok kvs) :
    (kvs.map Prod.fst).Nodup ↔ d ≠ Gen.ackAck_ ∧ d ≠ Gen.ackNak_ ∧ d ≠ Gen.mgaAck_ := by
  obtain ⟨hd, -⟩ := delivered h
  have hu : d = Gen.cfgPrtUart_ → UartWordOk p := by
    rintro rfl
    refine Classical.byContradiction fun hn => ?_
    obtain ⟨q, hq⟩ := (c25_uart_mode_exact h hn).2.1
    rw [hk] at hq
    cases hq
  obtain ⟨vs, h4, h5, -⟩ := c47_entries h hu
  rw [hk] at h5
  simp only [Except.ok.injEq] at h5
  have e : kvs.map Prod.fst = "class" :: "msg_id" :: d.fields.map FieldDesc.name := by
    rw [h5, List.map_cons, List.map_cons, List.map_fst_zip (by simp [h4])]
  rw [e]
  have : ∀ d ∈ Gen.recvPackets, ("class" :: "msg_id" :: d.fields.map FieldDesc.name).Nodup ↔
      d ≠ Gen.ackAck_ ∧ d ≠ Gen.ackNak_ ∧ d ≠ Gen.mgaAck_ := by decide +kernel
  exact this d hd

/-- **C47** is false: a delivered ACK-ACK, ACK-NAK or MGA-ACK packet is serialized with a key that
occurs twice, with different values. -/
theorem c47_duplicate_keys :
    (∃ kvs, (PacketRef.known Gen.ackAck_ [6, 1]).serialize = .ok kvs ∧
      matchPacket 5 1 [6, 1] = .ok (.ok (.known Gen.ackAck_ [6, 1])) ∧
      ("class", .raw (.u8 5)) ∈ kvs ∧ ("class", .raw (.u8 6)) ∈ kvs) ∧
    (∃ kvs, (PacketRef.known Gen.ackNak_ [6, 1]).serialize = .ok kvs ∧
      matchPacket 5 0 [6, 1] = .ok (.ok (.known Gen.ackNak_ [6, 1])) ∧
      ("class", .raw (.u8 5)) ∈ kvs ∧ ("class", .raw (.u8 6)) ∈ kvs) ∧
    (∃ kvs p, (PacketRef.known Gen.mgaAck_ p).serialize = .ok kvs ∧
      matchPacket Gen.mgaAck_.cls Gen.mgaAck_.id p = .ok (.ok (.known Gen.mgaAck_ p)) ∧
      ("msg_id", .raw (.u8 Gen.mgaAck_.id)) ∈ kvs ∧ ("msg_id", .raw (.u8 0x40)) ∈ kvs) := by
  refine ⟨⟨_, rfl, by decide +kernel, by decide +kernel, by decide +kernel⟩,
    ⟨_, rfl, by decide +kernel, by decide +kernel, by decide +kernel⟩,
    ⟨_, [1, 0, 0, 0x40, 0, 0, 0, 0], rfl, by decide +kernel, by decide +kernel, by decide +kernel⟩⟩

end Ublox.Props
