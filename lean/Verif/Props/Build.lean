import Verif.Lemmas.BuildInv
import Verif.Props.ParserDecode

/-! # Properties of builders: C17, C18, C19, C20 and C40 -/

namespace Ublox.Props
open Spec Gen
open Ublox.Parser

/-! ## C18 Builder output has the documented frame layout -/

/-- **C18** for any declaration whatsoever: if every field has a value whose bytes have the size of
the field, then `into_packet_bytes` is the frame with the bytes of the fields, in order, as
payload. -/
theorem c18_any_declaration {d : PackDesc} (hb : d.hasBuilder = true)
    (h64 : total d.fields < 65536) (hw : ∀ f ∈ d.fields, width f.ty ≠ 0) {b : Builder}
    {blocks : List Bytes} (hl : b.length = d.fields.length)
    (hl' : blocks.length = d.fields.length)
    (h : ∀ (i : Nat) (f : FieldDesc) (v : Val) (k : Bytes), d.fields[i]? = some f →
      b[i]? = some v → blocks[i]? = some k → f.bytes v = .ok k ∧ k.length = width f.ty) :
    d.intoPacketBytes b = .ok (frame d.cls d.id blocks.flatten) := by
  refine intoPacketBytes_eq hb h64 ?_
  have : ∀ (fs : List FieldDesc) (b : Builder) (ks : List Bytes), b.length = fs.length →
      ks.length = fs.length → (∀ f ∈ fs, width f.ty ≠ 0) →
      (∀ (i : Nat) (f : FieldDesc) (v : Val) (k : Bytes), fs[i]? = some f →
        b[i]? = some v → ks[i]? = some k → f.bytes v = .ok k ∧ k.length = width f.ty) →
      Blocks fs b ks := by
    intro fs
    induction fs with
    | nil =>
      intro b ks h1 h2 _ _
      match b, ks, h1, h2 with
      | [], [], _, _ => trivial
    | cons f fs ih =>
      intro b ks h1 h2 h3 h4
      match b, ks, h1, h2 with
      | v :: b, k :: ks, h1, h2 =>
        obtain ⟨t1, t2⟩ := h4 0 f v k rfl rfl rfl
        exact ⟨t1, t2, h3 f (by simp), ih b ks (by simpa using h1) (by simpa using h2)
          (fun g hg => h3 g (by simp [hg])) fun i g v k a1 a2 a3 => h4 (i + 1) g v k a1 a2 a3⟩
  exact this d.fields b blocks hl hl' hw h

/-- **C18**, partial: for every packet of the crate with a builder of fixed size, whatever the values
of the fields are, except for a NaN in a signed field (see `c18_returns_iff`): `into_packet_bytes`
does not panic and gives the frame whose payload is the concatenation of the fields in little-endian order,
of `PACKET_LEN` bytes altogether. -/
theorem c18_layout_partial {d : PackDesc} (hd : d ∈ allPackets) (hb : d.hasBuilder = true)
    (ht : ∀ f ∈ d.fields, f.ty ≠ .tail) {b : Builder} (h : Buildable d.fields b) :
    ∃ payload, d.intoPacketBytes b = .ok (frame d.cls d.id payload) ∧
      PayloadOf d.fields b payload ∧ payload.length = total d.fields ∧
      (frame d.cls d.id payload).length = total d.fields + 8 ∧
      d.payloadLen = .fixed payload.length := by
  obtain ⟨ks, h1, h2⟩ := buildable_blocks hd hb ht h
  have hlen := h1.length.1
  have htab : ∀ d ∈ allPackets, (∀ f ∈ d.fields, f.ty ≠ .tail) →
      d.payloadLen = .fixed (total d.fields) ∨ d.hasBuilder = false := by decide +kernel
  refine ⟨ks.flatten, intoPacketBytes_eq hb (build_total hd hb) h1, h2, hlen, ?_, ?_⟩
  · rw [frame_length, hlen]
  · rw [hlen]
    rcases htab d hd ht with h | h
    · exact h
    · rw [hb] at h; cases h

/-- **C18** is false for NaN: for values of the right types, `into_packet_bytes` returns exactly if
there is no NaN in a field of a signed type. -/
theorem c18_returns_iff {d : PackDesc} (hd : d ∈ allPackets) (hb : d.hasBuilder = true)
    (ht : ∀ f ∈ d.fields, f.ty ≠ .tail) {b : Builder} (hl : b.length = d.fields.length)
    (h : ∀ (i : Nat) (f : FieldDesc) (v : Val), d.fields[i]? = some f → b[i]? = some v →
      HasType f v) :
    (∃ bytes, d.intoPacketBytes b = .ok bytes) ↔
      ∀ (i : Nat) (f : FieldDesc) (v : Val), d.fields[i]? = some f → b[i]? = some v →
        ¬ SignedNan f v := by
  constructor
  · rintro ⟨bytes, hok⟩ i f v hf hv
    exact ((buildable_of_ok hd hb ht hok).2 i f v hf hv).2
  · intro hn
    obtain ⟨p, hp, -⟩ := c18_layout_partial hd hb ht (b := b)
      ⟨hl, fun i f v hf hv => ⟨h i f v hf hv, hn i f v hf hv⟩⟩
    exact ⟨_, hp⟩

/-- **C18**: whatever `into_packet_bytes` returns is the frame of the fields. -/
theorem c18_returned {d : PackDesc} (hd : d ∈ allPackets) (hb : d.hasBuilder = true)
    (ht : ∀ f ∈ d.fields, f.ty ≠ .tail) {b : Builder} {bytes : Bytes}
    (h : d.intoPacketBytes b = .ok bytes) :
    ∃ payload, bytes = frame d.cls d.id payload ∧
      PayloadOf d.fields b payload ∧ payload.length = total d.fields := by
  obtain ⟨p, h1, h2, h3, -⟩ := c18_layout_partial hd hb ht (buildable_of_ok hd hb ht h)
  rw [h] at h1
  exact ⟨p, Except.ok.inj h1, h2, h3⟩

/-- A value for `CfgTmode3` with a NaN as first coordinate. -/
def exNan : Builder := [.raw (.u8 0), .raw (.u8 0), .flags 0, .flags 0, .f64 (.nan false),
  .f64 (.fin 0), .f64 (.fin 0), .f32 (.fin 0), .f32 (.fin 0), .f32 (.fin 0), .raw (.u8 0),
  .f64 (.fin 0), .raw (.u32 0), .f64 (.fin 0), .raw (.bytes [0, 0, 0, 0, 0, 0, 0, 0])]

/-- **C18** is false: a NaN in a signed field of a real packet panics, although all values have the
right types. -/
theorem c18_nan_panics : exNan.length = cfgTmode3_.fields.length ∧
    (∀ x ∈ cfgTmode3_.fields.zip exNan, HasType x.1 x.2) ∧
    cfgTmode3_.intoPacketBytes exNan = .error .unwrap := by
  refine ⟨by decide +kernel, ?_, by decide +kernel⟩
  intro x hx
  simp only [cfgTmode3_, exNan, List.zip_cons_cons, List.zip_nil_right, List.mem_cons,
    List.not_mem_nil, or_false] at hx
  rcases hx with rfl | rfl | rfl | rfl | rfl | rfl | rfl | rfl | rfl | rfl | rfl | rfl | rfl | rfl |
    rfl
  all_goals first | exact trivial | rfl | exact Nat.two_pow_pos _

/-- Every packet with a builder except `CfgValSet` is of this kind. -/
theorem c18_all_but_cfgValSet : ∀ d ∈ allPackets, d.hasBuilder = true → d ≠ cfgValSet_ →
    ∀ f ∈ d.fields, f.ty ≠ .tail := by decide +kernel

/-- A value for `CfgRate`. -/
def exRate : Builder := [.raw (.u16 1000), .raw (.u16 1), .alignment .gps]

theorem exRate_buildable : Buildable cfgRate_.fields exRate := by
  refine ⟨rfl, fun i f v hf hv => ?_⟩
  match i, hf, hv with
  | 0, hf, hv => cases hf; cases hv; exact ⟨rfl, by rintro ⟨-, neg, h | h⟩ <;> cases h⟩
  | 1, hf, hv => cases hf; cases hv; exact ⟨rfl, by rintro ⟨-, neg, h | h⟩ <;> cases h⟩
  | 2, hf, hv => cases hf; cases hv; exact ⟨trivial, by rintro ⟨-, neg, h | h⟩ <;> cases h⟩
  | n + 3, hf, hv => cases hv

example : cfgRate_ ∈ allPackets ∧ cfgRate_.hasBuilder = true ∧
    (∀ f ∈ cfgRate_.fields, f.ty ≠ .tail) ∧ Buildable cfgRate_.fields exRate ∧
    cfgRate_.intoPacketBytes exRate =
      .ok [0xb5, 0x62, 0x06, 0x08, 6, 0, 0xe8, 0x03, 1, 0, 1, 0, 1, 57] :=
  ⟨by decide +kernel, by decide +kernel, by decide +kernel, exRate_buildable, by decide +kernel⟩

/-! ## C19 `create_packet` -/

/-- **C19**: `create_packet` asks the writer once for `PACKET_LEN` bytes and then hands over pieces
whose concatenation is what `into_packet_bytes` returns, up to the first error, which it returns. -/
theorem c19_create_packet {W E : Type} (mw : MemWriter W E) {d : PackDesc} (hd : d ∈ allPackets)
    (hb : d.hasBuilder = true) (ht : ∀ f ∈ d.fields, f.ty ≠ .tail) {b : Builder}
    {full : Bytes} (hf : d.intoPacketBytes b = .ok full) (w : W) :
    ∃ pieces : List Bytes, pieces.flatten = full ∧
      d.createPacket mw b w =
        match mw.reserveAllocate w full.length with
        | .error e => .error e
        | .ok (.error e, w) => .ok (.error e, w)
        | .ok (.ok (), w) => writeAll mw.write pieces w := by
  obtain ⟨ks, h1, h2⟩ := buildable_blocks hd hb ht (buildable_of_ok hd hb ht hf)
  have h64 := build_total hd hb
  obtain ⟨pieces, h3, h4⟩ := createPacket_eq mw hb h64 h1 w
  rw [intoPacketBytes_eq hb h64 h1] at hf
  obtain rfl := Except.ok.inj hf
  refine ⟨pieces, h3, ?_⟩
  rw [h4, frame_length, h1.length.1]
  rfl

/-- What is in a writer after `full` was handed to it: all of it, or a prefix after an error. -/
def Wrote {E : Type} (full before after : Bytes) : Except E Unit → Prop
  | .ok _ => after = before ++ full
  | .error _ => ∃ n, after = before ++ full.take n

/-- A writer whose content can be observed: reserving does not change it, a successful write appends
the bytes, a write that fails has appended at most a part of them. -/
structure Appending {W E : Type} (mw : MemWriter W E) (content : W → Bytes) : Prop where
  reserve : ∀ w n r w', mw.reserveAllocate w n = .ok (r, w') → content w' = content w
  write : ∀ w buf w', mw.write w buf = .ok (.ok (), w') → content w' = content w ++ buf
  fail : ∀ w buf e w', mw.write w buf = .ok (.error e, w') →
    ∃ n, content w' = content w ++ buf.take n

theorem writeAll_content {W E : Type} {mw : MemWriter W E} {content : W → Bytes}
    (ha : Appending mw content) (pieces : List Bytes) (w : W) {r : Except E Unit} {w' : W}
    (h : writeAll mw.write pieces w = .ok (r, w')) :
    Wrote pieces.flatten (content w) (content w') r := by
  induction pieces generalizing w with
  | nil =>
    simp only [writeAll, Except.ok.injEq, Prod.mk.injEq] at h
    obtain ⟨rfl, rfl⟩ := h
    simp [Wrote]
  | cons c cs ih =>
    rw [writeAll] at h
    revert h
    split
    · intro h; cases h
    · rename_i e w1 hw
      intro h
      simp only [Except.ok.injEq, Prod.mk.injEq] at h
      obtain ⟨rfl, rfl⟩ := h
      obtain ⟨n, hn⟩ := ha.fail _ _ _ _ hw
      refine ⟨min n c.length, ?_⟩
      rw [hn, List.flatten_cons, List.take_append_of_le_length (by omega), List.take_eq_take_min]
    · rename_i w1 hw
      intro h
      have h1 := ha.write _ _ _ hw
      have := ih w1 h
      revert this
      cases r with
      | ok u => simp only [Wrote, h1, List.flatten_cons, List.append_assoc]; exact id
      | error e =>
        rintro ⟨n, hn⟩
        refine ⟨c.length + n, ?_⟩
        rw [hn, h1, List.flatten_cons, List.take_append,
          List.take_of_length_le (l := c) (by omega),
          show c.length + n - c.length = n by omega, List.append_assoc]

/-- **C19**: on success the writer has received exactly the bytes of `into_packet_bytes`, after an
error a prefix of them. -/
theorem c19_content {W E : Type} {mw : MemWriter W E} {content : W → Bytes}
    (ha : Appending mw content) {d : PackDesc} (hd : d ∈ allPackets)
    (hb : d.hasBuilder = true) (ht : ∀ f ∈ d.fields, f.ty ≠ .tail) {b : Builder}
    {full : Bytes} (hf : d.intoPacketBytes b = .ok full) (w w' : W) {r : Except E Unit}
    (hr : d.createPacket mw b w = .ok (r, w')) : Wrote full (content w) (content w') r := by
  obtain ⟨pieces, h2, h3⟩ := c19_create_packet mw hd hb ht hf w
  rw [h3] at hr
  revert hr
  split
  · intro h; cases h
  · rename_i e w1 hw
    intro h
    simp only [Except.ok.injEq, Prod.mk.injEq] at h
    obtain ⟨rfl, rfl⟩ := h
    exact ⟨0, by rw [ha.reserve _ _ _ _ hw]; simp⟩
  · rename_i w1 hw
    intro h
    have := writeAll_content ha pieces w1 h
    rw [ha.reserve _ _ _ _ hw, h2] at this
    exact this

theorem writeAll_vec (E : Type) (pieces : List Bytes) (w : Bytes) :
    writeAll (vecWriter E).write pieces w = .ok (.ok (), w ++ pieces.flatten) := by
  induction pieces generalizing w with
  | nil => simp [writeAll]
  | cons c cs ih =>
    have : (vecWriter E).write w c = .ok (.ok (), w ++ c) := rfl
    rw [writeAll, this]
    simp only [ih, List.flatten_cons, List.append_assoc]

/-- **C19** for `Vec<u8>`: the frame is appended, there is no error. -/
theorem c19_vec (E : Type) {d : PackDesc} (hd : d ∈ allPackets)
    (hb : d.hasBuilder = true) (ht : ∀ f ∈ d.fields, f.ty ≠ .tail) {b : Builder}
    {full : Bytes} (hf : d.intoPacketBytes b = .ok full) (w : Bytes) :
    d.createPacket (vecWriter E) b w = .ok (.ok (), w ++ full) := by
  obtain ⟨pieces, h2, h3⟩ := c19_create_packet (vecWriter E) hd hb ht hf w
  rw [h3, show (vecWriter E).reserveAllocate w full.length = .ok (.ok (), w) from rfl]
  simp only [writeAll_vec, h2]

/-- A writer with room for a limited number of bytes, which writes as much as it can. -/
def roomWriter : MemWriter (Nat × Bytes) String where
  reserveAllocate w n := .ok (if n ≤ w.1 + 100 then .ok () else .error "no memory", w)
  write w buf :=
    .ok (if buf.length ≤ w.1 then .ok () else .error "full",
      (w.1 - buf.length, w.2 ++ buf.take w.1))

example : Appending roomWriter Prod.snd where
  reserve := by
    intro w n r w' h
    simp only [roomWriter, Except.ok.injEq, Prod.mk.injEq] at h
    rw [← h.2]
  write := by
    intro w buf w' h
    simp only [roomWriter, Except.ok.injEq, Prod.mk.injEq] at h
    obtain ⟨h1, rfl⟩ := h
    split at h1
    · rw [List.take_of_length_le (by assumption)]
    · cases h1
  fail := by
    intro w buf e w' h
    simp only [roomWriter, Except.ok.injEq, Prod.mk.injEq] at h
    exact ⟨w.1, by rw [← h.2]⟩

example : cfgRate_.createPacket roomWriter exRate (9, [7]) =
    .ok (.error "full", (0, [7, 0xb5, 0x62, 0x06, 0x08, 6, 0, 0xe8, 0x03, 1])) := by decide +kernel

/-! ## C17 Built packets are accepted by the parser -/

/-- What a parser with the crate's dispatch returns for a frame: a packet with this class, id and
payload. -/
def Delivered (x : UInt8 × UInt8 × Bytes) (r : Except ParserError PacketRef) : Prop :=
  ∃ p : PacketRef, r = .ok p ∧ p.classAndMsgId = (x.1, x.2.1) ∧ p.payload = x.2.2

theorem delivered_match (c i : UInt8) (p : Bytes) :
    Delivered (c, i, p) (crateDispatch.matchPacket c i p) := by
  obtain ⟨q, h1, h2, h3, -⟩ := c23_dispatch c i p
  rw [crateDispatch_eq] at h1
  exact ⟨q, Except.ok.inj h1, h2, h3⟩

/-- The parser returns one packet per frame of a clean stream and nothing else. -/
def DeliversAll (items : List (Bytes × UInt8 × UInt8 × Bytes))
    (rs : List (Except ParserError PacketRef)) : Prop :=
  rs.length = items.length ∧ ∀ (k : Nat) x r, items[k]? = some x → rs[k]? = some r →
    Delivered x.2 r

theorem deliversAll_map (items : List (Bytes × UInt8 × UInt8 × Bytes)) :
    DeliversAll items
      (items.map fun x => crateDispatch.matchPacket x.2.1 x.2.2.1 x.2.2.2) := by
  refine ⟨by simp, fun k x r hx hr => ?_⟩
  rw [List.getElem?_map, hx] at hr
  simp only [Option.map_some, Option.some.injEq] at hr
  rw [← hr]
  exact delivered_match _ _ _

/-- One packet built by the crate, with the bytes that come before it on the line. -/
structure Built where
  sep : Bytes
  desc : PackDesc
  values : Builder
  bytes : Bytes

/-- It is a packet of the crate, of fixed size, the bytes are what `into_packet_bytes`
returned, and what comes before contains no sync byte. -/
def Built.Ok (x : Built) : Prop :=
  x.desc ∈ allPackets ∧ x.desc.hasBuilder = true ∧ (∀ f ∈ x.desc.fields, f.ty ≠ .tail) ∧
  x.desc.intoPacketBytes x.values = .ok x.bytes ∧
  (0xb5 : UInt8) ∉ x.sep

/-- What is on the line. -/
def line (xs : List Built) (last : Bytes) : Bytes :=
  (xs.map fun x => x.sep ++ x.bytes).flatten ++ last

/-- One packet for each packet that was sent, with its class, its id and its fields as payload, and
nothing else. -/
def Received (xs : List Built) (rs : List (Except ParserError PacketRef)) : Prop :=
  rs.length = xs.length ∧ ∀ (k : Nat) (x : Built) (r : Except ParserError PacketRef),
    xs[k]? = some x → rs[k]? = some r →
    ∃ p : PacketRef, r = .ok p ∧ p.classAndMsgId = (x.desc.cls, x.desc.id) ∧
      PayloadOf x.desc.fields x.values p.payload

theorem line_clean {xs : List Built} (hx : ∀ x ∈ xs, x.Ok) (last : Bytes) :
    ∃ items : List (Bytes × UInt8 × UInt8 × Bytes),
      line xs last = cleanStream items last ∧
      (∀ y ∈ items, (0xb5 : UInt8) ∉ y.1) ∧ (∀ y ∈ items, y.2.2.2.length ≤ 8176) ∧
      (∀ y ∈ items, ∃ x ∈ xs, x.bytes = frame y.2.1 y.2.2.1 y.2.2.2) ∧
      ∀ rs, DeliversAll items rs → Received xs rs := by
  have hmax : ∀ d ∈ allPackets, d.hasBuilder = true → total d.fields ≤ 8176 := by decide +kernel
  induction xs with
  | nil =>
    refine ⟨[], rfl, by simp, by simp, by simp, ?_⟩
    rintro rs ⟨h, -⟩
    exact ⟨h, by simp⟩
  | cons x xs ih =>
    obtain ⟨items, i1, i2, i3, i5, i4⟩ := ih fun y hy => hx y (by simp [hy])
    obtain ⟨h1, h2, h3, h5, h6⟩ := hx x (by simp)
    obtain ⟨p, hbytes, p2, p3⟩ := c18_returned h1 h2 h3 h5
    refine ⟨(x.sep, x.desc.cls, x.desc.id, p) :: items, ?_, ?_, ?_, ?_, ?_⟩
    · rw [cleanStream, ← i1, ← hbytes]
      simp [line, List.append_assoc]
    · intro y hy
      rcases List.mem_cons.mp hy with rfl | hy
      · exact h6
      · exact i2 y hy
    · intro y hy
      rcases List.mem_cons.mp hy with rfl | hy
      · have := hmax _ h1 h2; simp only; omega
      · exact i3 y hy
    · intro y hy
      rcases List.mem_cons.mp hy with rfl | hy
      · exact ⟨x, by simp, hbytes⟩
      · obtain ⟨z, hz, h⟩ := i5 y hy; exact ⟨z, by simp [hz], h⟩
    · rintro rs ⟨hl, hrs⟩
      match rs, hl with
      | r :: rs, hl =>
        obtain ⟨j1, j2⟩ := i4 rs ⟨by simpa using hl, fun k y s a b => hrs (k + 1) y s a b⟩
        refine ⟨by simpa using j1, fun k y s hy hs => ?_⟩
        cases k with
        | zero =>
          simp only [List.getElem?_cons_zero, Option.some.injEq] at hy hs
          subst hy; subst hs
          obtain ⟨q, q1, q2, q3⟩ := hrs 0 _ _ rfl rfl
          exact ⟨q, q1, q2, by rw [q3]; exact p2⟩
        | succ k => exact j2 k y s hy hs

/-- **C17**: packets built by the crate, sent one after the other with anything that contains no
sync byte in between, are returned by the parser as packets with the class, id and payload they
were built with, without any error, however the bytes are split into calls. -/
theorem c17_vec {M : Nat} (hM : 8176 + 8 ≤ M) {xs : List Built} (hx : ∀ x ∈ xs, x.Ok) (last : Bytes)
    (hlast : (0xb5 : UInt8) ∉ last) (h : List (Bytes × Nat)) (hfed : fedBytes h = line xs last)
    (hc : ∀ x ∈ h, x.1.length + 8176 + 8 ≤ M / 2)
    {rss q} (hq : session M crateDispatch (vecParser M) h = some (.ok (rss, q)))
    (he : Exhausted rss) : Received xs (results rss) ∧ q.isBufferEmpty = true := by
  obtain ⟨items, i1, i2, i3, -, i4⟩ := line_clean hx last
  have hm := crate_max
  obtain ⟨h1, h2⟩ := c04_vec_clean_stream (D := crateDispatch) (by omega) (by omega) items last i2
    hlast (by rw [hm]; exact i3) h (by rw [hfed, i1]) (by rw [hm]; exact hc) hq he
  exact ⟨i4 _ (by rw [h1]; exact deliversAll_map items), h2⟩

/-- **C17** for a parser with a fixed buffer that the packets fit into. -/
theorem c17_flb {M : Nat} (hM : 8176 + 8 ≤ M) (backing : Bytes) (hb : backing.length ≤ M / 2)
    (h5 : 5 ≤ backing.length) {xs : List Built} (hx : ∀ x ∈ xs, x.Ok)
    (hcap : ∀ x ∈ xs, x.bytes.length ≤ backing.length + 1) (last : Bytes)
    (hlast : (0xb5 : UInt8) ∉ last) (h : List (Bytes × Nat)) (hfed : fedBytes h = line xs last)
    (hs : Slices M h)
    {rss q} (hq : session M crateDispatch (flbParser M backing) h = some (.ok (rss, q)))
    (he : Exhausted rss) : Received xs (results rss) ∧ q.isBufferEmpty = true := by
  obtain ⟨items, i1, i2, i3, i5, i4⟩ := line_clean hx last
  have hm := crate_max
  obtain ⟨h1, h2⟩ := c04_flb_clean_stream (D := crateDispatch) (by omega) (by omega) backing hb h5
    items last i2 hlast (by rw [hm]; exact i3)
    (fun y hy => by obtain ⟨x, hx, h⟩ := i5 y hy; rw [← h]; exact hcap x hx)
    h (by rw [hfed, i1]) hs hq he
  exact ⟨i4 _ (by rw [h1]; exact deliversAll_map items), h2⟩

example : Built.Ok ⟨[1, 2], cfgRate_, exRate,
    [0xb5, 0x62, 0x06, 0x08, 6, 0, 0xe8, 0x03, 1, 0, 1, 0, 1, 57]⟩ :=
  ⟨by decide +kernel, by decide +kernel, by decide +kernel, by decide +kernel, by decide⟩

/-! ## C20 Field accessors return what the builder was given -/

/-- **C20**: for every packet that can be built and received, reading the payload of a built packet
gives for every field the raw value that was put in; enum values, flag sets, UART modes and plain
values come back as they were given.  The payload passes the validation of the packet. -/
theorem c20_read_back {d : PackDesc} (hd : d ∈ allPackets) (hk : d.kind = .recvSend) {b : Builder}
    {bytes : Bytes} (hok : d.intoPacketBytes b = .ok bytes) :
    ∃ payload, bytes = frame d.cls d.id payload ∧
      d.validate payload = .ok (.ok ()) ∧
      ∀ (i : Nat) (f : FieldDesc) (v : Val), d.fields[i]? = some f → b[i]? = some v →
        ∃ r, RawOf f v r ∧
          (f.map ≠ none → d.getRaw f.getName payload = .ok r) ∧
          d.get f.getName payload = f.convert r ∧
          ((∃ x, v = .enum x) ∨ (∃ x, v = .flags x) ∨ (∃ x, v = .uartMode x) ∨ (∃ x, v = .raw x) →
            d.get f.getName payload = .ok v) := by
  have hk' : d.kind ≠ .send := by rw [hk]; decide
  have hb : d.hasBuilder = true := by unfold PackDesc.hasBuilder; rw [hk]; rfl
  have ht : ∀ f ∈ d.fields, f.ty ≠ .tail := fun f hf => (build_mayFail' hd hk hf).1
  have h := buildable_of_ok hd hb ht hok
  obtain ⟨p, h1, h2, h3⟩ := c18_returned hd hb ht hok
  refine ⟨p, h1, ((c22_validate hd hk' p).2.1).mpr (built_valid hd hk h h2), ?_⟩
  intro i f v hf hv
  have hfm := List.mem_of_getElem? hf
  obtain ⟨r, r1, r2⟩ := payloadOf_slot h.1 h2 hf hv
  obtain ⟨s, s1, s2, s3, s4⟩ := c21_accessor hd hk' hf (ht f hfm) (payload := p) (by omega)
  have hrs : s = r := Denotes.unique s2 r2 s1 r1.1
  subst hrs
  have hget : d.get f.getName p = f.convert s := by
    by_cases hm : f.map = none
    · rw [s3 hm]
      have hw := readable_wf d hd hk'
      simp only [PackDesc.wf, Bool.and_eq_true, List.all_eq_true] at hw
      have hw := hw.1 f hfm
      simp only [FieldDesc.wf, Bool.and_eq_true, hm, Option.isNone_iff_eq_none] at hw
      unfold FieldDesc.convert
      rw [hm, hw.2.2]
      rfl
    · exact (s4 hm).2
  refine ⟨s, r1, fun hm => (s4 hm).1, hget, fun hkept => ?_⟩
  rw [hget]
  refine convert_back hd hk' hfm (h.2 i f v hf hv).1 ?_ r1
  rcases hkept with ⟨x, rfl⟩ | ⟨x, rfl⟩ | ⟨x, rfl⟩ | ⟨x, rfl⟩ <;> trivial

/-- **C20**, reception: a parser delivers a packet built by the crate as the same type, if the type
is in the list of the crate's packets (all except `CfgInf` and `CfgNavX5`, see `c46_unlisted`). -/
theorem c20_same_type {d : PackDesc} (hd : d ∈ recvPackets) (hk : d.kind = .recvSend) {b : Builder}
    {bytes : Bytes} (hok : d.intoPacketBytes b = .ok bytes) :
    ∃ payload, bytes = frame d.cls d.id payload ∧
      matchPacket d.cls d.id payload = .ok (.ok (.known d payload)) := by
  have hall := (recv_readable d hd).1
  have hb : d.hasBuilder = true := by unfold PackDesc.hasBuilder; rw [hk]; rfl
  have ht : ∀ f ∈ d.fields, f.ty ≠ .tail := fun f hf => (build_mayFail' hall hk hf).1
  have h := buildable_of_ok hall hb ht hok
  obtain ⟨p, h1, h2, h3⟩ := c18_returned hall hb ht hok
  refine ⟨p, h1, ?_⟩
  have hv := built_valid hall hk h h2
  have htab : ∀ d ∈ recvPackets, d.kind = .recvSend →
      ((recvPackets.filter fun e => decide (d.cls = e.cls ∧ d.id = e.id)) = [d]) ∨
      d = cfgPrtI2c_ ∨ d = cfgPrtSpi_ ∨ d = cfgPrtUart_ := by decide +kernel
  rcases htab d hd hk with hf | hf
  · unfold matchPacket
    rw [matchPacketIn_filter, hf]
    exact (matchPacketIn_cons (recv_wf hd) rfl rfl).1 hv
  · have hprt : ∀ (d : PackDesc) (n : Nat) (f : FieldDesc) (e : EnumDesc),
        fallible d = [(f, 0)] → f.map = some (.enum e) → f.ty = .u8 →
        d.fields.any (fun f => f.ty == .tail) = false → total d.fields = n → 
        d.fields.filterMap (·.sizeFn) = [] → 0 < n → p.length = n → Valid d p →
        ∃ b rest, p = b :: rest ∧ b ∈ e.variants.map (·.2) := by
      intro d n f e a1 a2 a3 a4 a5 a6 a7 a8 a9
      match p, a8 with
      | [], a8 => simp at a8; omega
      | b :: rest, a8 => exact ⟨b, rest, rfl, (valid_first_enum n a1 a2 a3 a4 a5 a6 a8).mp a9⟩
    rcases hf with rfl | rfl | rfl
    · have ht : total cfgPrtI2c_.fields = 20 := by decide +kernel
      obtain ⟨b0, rest, rfl, hm⟩ := hprt cfgPrtI2c_ 20
        { name := "portid", ty := .u8, map := some (.enum i2cPortId_), mayFail := true }
        i2cPortId_ (by decide +kernel) rfl rfl (by decide +kernel) ht (by decide +kernel) (by omega)
        (by omega) hv
      have := c24_cfg_prt b0 rest (by simp at h3; omega)
      simp only [i2cPortId_, List.map_cons, List.map_nil] at hm
      rw [if_pos (by simpa using hm)] at this
      exact this
    · have ht : total cfgPrtSpi_.fields = 20 := by decide +kernel
      obtain ⟨b0, rest, rfl, hm⟩ := hprt cfgPrtSpi_ 20
        { name := "portid", ty := .u8, map := some (.enum spiPortId_), mayFail := true }
        spiPortId_ (by decide +kernel) rfl rfl (by decide +kernel) ht (by decide +kernel) (by omega)
        (by omega) hv
      have := c24_cfg_prt b0 rest (by simp at h3; omega)
      simp only [spiPortId_, List.map_cons, List.map_nil] at hm
      have hb0 : b0 = 4 := by simpa using hm
      subst hb0
      exact this
    · have ht : total cfgPrtUart_.fields = 20 := by decide +kernel
      obtain ⟨b0, rest, rfl, hm⟩ := hprt cfgPrtUart_ 20
        { name := "portid", ty := .u8, map := some (.enum uartPortId_), mayFail := true }
        uartPortId_ (by decide +kernel) rfl rfl (by decide +kernel) ht (by decide +kernel) (by omega)
        (by omega) hv
      have := c24_cfg_prt b0 rest (by simp at h3; omega)
      simp only [uartPortId_, List.map_cons, List.map_nil] at hm
      have hb0 : b0 = 1 ∨ b0 = 2 ∨ b0 = 3 := by simpa using hm
      rw [if_neg (by rcases hb0 with rfl | rfl | rfl <;> decide),
        if_neg (by rcases hb0 with rfl | rfl | rfl <;> decide), if_pos hb0] at this
      exact this

example : cfgPrtUart_ ∈ recvPackets ∧ cfgPrtUart_.kind = .recvSend := by decide +kernel

/-! ## C40 Poll requests -/

/-- **C40**: the request for any class and id is a frame of eight bytes with empty payload. -/
theorem c40_request (cls id : UInt8) :
    requestBytes cls id = .ok (frame cls id []) ∧ (frame cls id []).length = 8 := by
  refine ⟨?_, by rw [frame_length]; rfl⟩
  have h : sliceRange [SYNC_CHAR_1, SYNC_CHAR_2, cls, id, 0, 0, 0, 0] 2 6 = .ok [cls, id, 0, 0] := rfl
  unfold requestBytes
  simp only [h, Except.ok_bind]
  simp only [ubxChecksum_eq]
  rfl

/-- **C40** for `request_for::<T>`: the frame carries the class and id of the packet. -/
theorem c40_request_for (d : PackDesc) : d.requestFor = .ok (frame d.cls d.id []) :=
  (c40_request d.cls d.id).1

/-- **C40**: a parser returns it as one packet with that class and id and empty payload. -/
theorem c40_parsed {M : Nat} (hM : 8176 + 8 ≤ M) {cls id : UInt8} {bytes : Bytes}
    (hr : requestBytes cls id = .ok bytes) (h : List (Bytes × Nat)) (hfed : fedBytes h = bytes)
    (hc : ∀ x ∈ h, x.1.length + 8176 + 8 ≤ M / 2)
    {rss q} (hq : session M crateDispatch (vecParser M) h = some (.ok (rss, q)))
    (he : Exhausted rss) :
    ∃ p : PacketRef, results rss = [.ok p] ∧ p.classAndMsgId = (cls, id) ∧ p.payload = [] := by
  rw [(c40_request cls id).1] at hr
  have hb := Except.ok.inj hr
  have hm := crate_max
  obtain ⟨h1, -⟩ := c04_vec_clean_stream (D := crateDispatch) (by omega) (by omega)
    [([], cls, id, [])] [] (by simp) (by simp) (by simp) h
    (by rw [hfed, ← hb]; simp [cleanStream]) (by rw [hm]; exact hc) hq he
  obtain ⟨p, p1, p2, p3⟩ := delivered_match cls id []
  refine ⟨p, ?_, p2, p3⟩
  rw [h1]
  simp only [List.map_cons, List.map_nil, p1]

/-- **C40** for a parser with a fixed buffer of at least 7 bytes. -/
theorem c40_parsed_flb {M : Nat} (hM : 8176 + 8 ≤ M) (backing : Bytes)
    (hb7 : 7 ≤ backing.length) (hbM : backing.length ≤ M / 2) {cls id : UInt8} {bytes : Bytes}
    (hr : requestBytes cls id = .ok bytes) (h : List (Bytes × Nat)) (hfed : fedBytes h = bytes)
    (hs : Slices M h)
    {rss q} (hq : session M crateDispatch (flbParser M backing) h = some (.ok (rss, q)))
    (he : Exhausted rss) :
    ∃ p : PacketRef, results rss = [.ok p] ∧ p.classAndMsgId = (cls, id) ∧ p.payload = [] := by
  rw [(c40_request cls id).1] at hr
  have hb := Except.ok.inj hr
  have hm := crate_max
  obtain ⟨h1, -⟩ := c04_flb_clean_stream (D := crateDispatch) (by omega) (by omega) backing hbM
    (by omega) [([], cls, id, [])] [] (by simp) (by simp) (by simp)
    (by simp [frame_length]; omega) h
    (by rw [hfed, ← hb]; simp [cleanStream]) hs hq he
  obtain ⟨p, p1, p2, p3⟩ := delivered_match cls id []
  refine ⟨p, ?_, p2, p3⟩
  rw [h1]
  simp only [List.map_cons, List.map_nil, p1]

example : requestBytes 0x0a 0x04 = .ok [0xb5, 0x62, 0x0a, 0x04, 0, 0, 0x0e, 0x34] ∧
    monVer_.requestFor = requestBytes 0x0a 0x04 := by decide +kernel

end Ublox.Props
