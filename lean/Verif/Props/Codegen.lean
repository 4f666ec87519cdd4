import Verif.Lemmas.LinkCrate
import Verif.Props.Input
import Verif.Props.Extend
import Verif.Props.Packet
import Verif.Props.Build

/-!
# C72–C74: the generated code computes what the declarations say
-/

namespace Ublox.Props

open Spec Gen Rust

variable {W E : Type}

/-! ## C72: receiving -/

/-- **C72**: for every accepted packet whose methods have different names, the macro generates code; its
methods are `as_bytes`, the accessors and `validate`; and, run on any payload, every accessor, every raw
accessor and `validate` return what the declaration says, and panic exactly where the declaration says. -/
theorem c72_recv {d : PackDesc} (hacc : d.parse = .ok d)
    (hmap : ∀ f ∈ d.fields, f.sizeFn.isSome → f.map.isSome) (hn : (methodNames d).Nodup)
    {x : Externs W E} (hx : RecvLinks x d) (hM : SizesFit x.maxUsize d) :
    ∃ code, generateRecvCode (packetCode d) = .ok code ∧
      code.packName = d.name ∧ code.methods.map FnDecl.name = methodNames d ∧
      (∀ f ∈ d.fields, ∃ m, methodNamed code.methods f.getName = some m ∧
        ∀ payload, m.call x [refV d.name payload] = valV <$> d.get f.getName payload) ∧
      (∀ f ∈ d.fields, f.map.isSome → f.ty.size.isSome →
        ∃ m, methodNamed code.methods (f.getName ++ "_raw") = some m ∧
        ∀ payload, m.call x [refV d.name payload] = rawV <$> d.getRaw f.getName payload) ∧
      (∃ m, methodNamed code.methods "validate" = some m ∧
        ∀ payload, m.call x [.bytes payload] = resultV <$> d.validate payload) ∧
      (∃ m, methodNamed code.methods "as_bytes" = some m ∧
        ∀ payload, m.call x [refV d.name payload] = .ok (.bytes payload)) := by
  obtain ⟨v, hv, -, -⟩ := validateCode_call x hacc hmap hx hM
  have hcode := generateRecvCode_eq hacc hmap
  rw [hv] at hcode
  exact ⟨_, hcode, rfl, recv_methods x hacc hmap hn hx hM hcode⟩

/-- **C72**, in a program: the functions that the declaration names are themselves generated by the macros
(enumerations and flags) or written by hand. -/
theorem c72_linked {base : Externs W E} {cs : List Conv} (hp : ProgramOk cs) {d : PackDesc}
    (hd : PacketIn cs d) (hacc : d.parse = .ok d)
    (hmap : ∀ f ∈ d.fields, f.sizeFn.isSome → f.map.isSome) (hn : (methodNames d).Nodup)
    (hM : SizesFit base.maxUsize d) :
    (∀ f ∈ d.fields, ∀ payload,
      recvMethod base cs d f.getName [refV d.name payload] = valV <$> d.get f.getName payload) ∧
    (∀ f ∈ d.fields, f.map.isSome → f.ty.size.isSome → ∀ payload,
      recvMethod base cs d (f.getName ++ "_raw") [refV d.name payload] =
        rawV <$> d.getRaw f.getName payload) ∧
    (∀ payload, recvMethod base cs d "validate" [.bytes payload] = resultV <$> d.validate payload) ∧
    (∀ payload, recvMethod base cs d "as_bytes" [refV d.name payload] = .ok (.bytes payload)) := by
  obtain ⟨code, hc, -, -, h1, h2, ⟨m3, h3, h3'⟩, ⟨m4, h4, h4'⟩⟩ :=
    c72_recv hacc hmap hn (packX_recv base hp hd) (x := packX base cs d) hM
  refine ⟨?_, ?_, ?_, ?_⟩
  · intro f hf payload
    obtain ⟨m, hm, h⟩ := h1 f hf
    simp only [recvMethod, hc, hm, callFn]
    exact h payload
  · intro f hf ha hb payload
    obtain ⟨m, hm, h⟩ := h2 f hf ha hb
    simp only [recvMethod, hc, hm, callFn]
    exact h payload
  · intro payload
    simp only [recvMethod, hc, h3, callFn]
    exact h3' payload
  · intro payload
    simp only [recvMethod, hc, h4, callFn]
    exact h4' payload

theorem sizesFit_mono {M : Nat} {d : PackDesc} (h : SizesFit 65535 d) (hM : 65535 ≤ M) : SizesFit M d :=
  Nat.le_trans h hM

instance (M : Nat) (d : PackDesc) : Decidable (SizesFit M d) := inferInstanceAs (Decidable (_ ≤ _))

theorem crate_recv : ∀ d ∈ allPackets, d.parse = .ok d ∧
    (∀ f ∈ d.fields, f.sizeFn.isSome → f.map.isSome) ∧ SizesFit 65535 d := by decide +kernel

theorem crate_methods : ∀ d ∈ allPackets, (methodNames d).Nodup := by decide +kernel

/-- **C72** for the crate: every declaration of a packet is read as one of the descriptions of
`Gen.allPackets`, and the methods that the macros generate for it return what the description says. -/
theorem c72_crate {base : Externs W E} (hM : 65535 ≤ base.maxUsize) : ∀ s ∈ packetDecls,
    ∃ d ∈ allPackets, ∃ code, Syn.parsePacketDescription s = .ok (packetCode d) ∧ s.kind = d.kind ∧
      generateRecvCode (packetCode d) = .ok code ∧ code.methods.map FnDecl.name = methodNames d ∧
      (∀ f ∈ d.fields, ∀ payload, recvMethod base crateConvs d f.getName [refV d.name payload] =
        valV <$> d.get f.getName payload) ∧
      (∀ f ∈ d.fields, f.map.isSome → f.ty.size.isSome → ∀ payload,
        recvMethod base crateConvs d (f.getName ++ "_raw") [refV d.name payload] =
          rawV <$> d.getRaw f.getName payload) ∧
      (∀ payload, recvMethod base crateConvs d "validate" [.bytes payload] =
        resultV <$> d.validate payload) ∧
      (∀ payload, recvMethod base crateConvs d "as_bytes" [refV d.name payload] =
        .ok (.bytes payload)) := by
  intro s hs
  obtain ⟨d, hd, he⟩ := mem_zip_map c67_crate hs
  obtain ⟨h1, h2, h3⟩ := crate_recv d hd
  have hM' := sizesFit_mono h3 hM
  obtain ⟨code, hc, -, hm, -⟩ := c72_recv h1 h2 (crate_methods d hd)
    (packX_recv base crate_program (crate_packets d hd)) (x := packX base crateConvs d) hM'
  refine ⟨d, hd, code, congrArg Prod.snd he, congrArg Prod.fst he, hc, hm, ?_⟩
  exact c72_linked crate_program (crate_packets d hd) h1 h2 (crate_methods d hd) hM'

/-- **C72** for the crate, together with C22: the generated `validate` of a packet returns, and accepts
exactly the valid payloads. -/
theorem c72_validate {base : Externs W E} (hM : 65535 ≤ base.maxUsize) {d : PackDesc} (hd : d ∈ allPackets)
    (hk : d.kind ≠ .send) (payload : Bytes) :
    ∃ v : V W E, recvMethod base crateConvs d "validate" [.bytes payload] = .ok v ∧
      (v = .ok .unit ↔ Valid d payload) := by
  obtain ⟨h1, h2, h3⟩ := crate_recv d hd
  obtain ⟨-, -, h, -⟩ := c72_linked crate_program (crate_packets d hd) h1 h2 (crate_methods d hd)
    (sizesFit_mono h3 hM) (base := base)
  obtain ⟨⟨r, hr⟩, hv, -⟩ := c22_validate hd hk payload
  refine ⟨resultV r, ?_, ?_⟩
  · rw [h, hr]; rfl
  · rw [← hv, hr]
    cases r with
    | ok u => exact ⟨fun _ => rfl, fun _ => rfl⟩
    | error e => exact ⟨fun h => (by cases h), fun h => (by cases h)⟩

/-! ## C73: sending -/

/-- **C73**: for every packet with a builder whose payload has a fixed length, the macro generates code; its
functions `into_packet_bytes`, `From<Builder>` and `create_packet`, run on any builder whose values have the
types of the fields, return and write what the declaration says, and panic exactly where the declaration
says. -/
theorem c73_fixed {d : PackDesc} {size : Nat} (hsz : d.packetPayloadSize = some size) (hlt : size < 65536)
    (hb : d.hasBuilder = true) (hn : (d.fields.map FieldDesc.getName).Nodup) {x : Externs W E}
    (hx : SendLinks x d) :
    ∃ s ipb frm cp, generateSendCode (packetCode d) = .ok s ∧ s.packName = d.name ∧
      s.default = d.defaultForBuilder ∧ s.fields.map Prod.fst = d.fields.map FieldDesc.getName ∧
      s.body = .fixed (size + 8) ipb frm cp ∧
      ∀ b, BuilderTyped d.fields b →
        ipb.call x [builderV d b] = V.bytes <$> d.intoPacketBytes b ∧
        (x.method (builderV d b) "into_packet_bytes" = ipb.call x [builderV d b] →
          frm.call x [builderV d b] = V.bytes <$> d.intoPacketBytes b) ∧
        ∀ w, runMut x cp (builderV d b) (.writer w) =
          (fun p => (writeResultV p.1, .writer p.2)) <$> d.createPacket x.writer b w := by
  obtain ⟨s, h1, h2, h3, h4, h5⟩ := send_fixed hsz hlt
  refine ⟨s, _, _, _, h1, h2, h3, ?_, h5, ?_⟩
  · rw [h4, List.map_map]
    rfl
  intro b ht
  have hf := builderV_hasField (W := W) (E := E) (b := b) hn
  have hs := fieldsSize_some hsz
  have hi := intoPacketBytesCode_call x hsz hlt hb hx (hx.packetLen _ hsz) ht hf hs
  refine ⟨hi, ?_, ?_⟩
  · intro h
    exact fromBuilderCode_call x (h.trans hi)
  · intro w
    refine runMut_eq x rfl ?_
    rw [createPacketCode_run x w hsz hlt hb hx ht hf hs]
    cases d.createPacket x.writer b w <;> rfl

/-- **C73**: the same for packets whose payload has no fixed length, with `into_packet_vec` and
`extend_to`. -/
theorem c73_dynamic {d : PackDesc} (hsz : d.packetPayloadSize = none)
    (hl : ∀ f ∈ d.fields.dropLast, f.ty.size ≠ none)
    (hb : d.hasBuilder = true) (hn : (d.fields.map FieldDesc.getName).Nodup) {x : Externs W E}
    (hx : SendLinks x d) :
    ∃ s ipv ext, generateSendCode (packetCode d) = .ok s ∧ s.packName = d.name ∧
      s.default = d.defaultForBuilder ∧ s.fields.map Prod.fst = d.fields.map FieldDesc.getName ∧
      s.body = .dynamic ipv ext ∧
      ∀ b, BuilderTyped d.fields b →
        (∀ out, runMut x ext (builderV d b) (.bytes out) =
          (fun o => (.unit, .bytes o)) <$> d.extendTo x.maxUsize b out) ∧
        (x.methodMut (builderV d b) "extend_to" (.bytes []) = runMut x ext (builderV d b) (.bytes []) →
          ipv.call x [builderV d b] = V.bytes <$> d.intoPacketVec x.maxUsize b) := by
  obtain ⟨s, h1, h2, h3, h4, h5⟩ := send_dynamic hsz hl
  refine ⟨s, _, _, h1, h2, h3, ?_, h5, ?_⟩
  · rw [h4, List.map_map]
    rfl
  intro b ht
  have hf := builderV_hasField (W := W) (E := E) (b := b) hn
  have he : ∀ out, runMut x (extendToCode d.name (d.fields.flatMap fun f =>
      if f.ty.size.isSome then extendFieldCode (fieldCode f) else extendIterCode (fieldCode f)))
      (builderV d b) (.bytes out) = (fun o => (.unit, .bytes o)) <$> d.extendTo x.maxUsize b out := by
    intro out
    refine runMut_eq x rfl ?_
    rw [extendToCode_run x out hsz hb hx hx.cfgVal ht hf hl]
    cases d.extendTo x.maxUsize b out <;> rfl
  refine ⟨he, ?_⟩
  intro h
  exact intoPacketVecCode_call x (h.trans (he []))

/-- **C73**: a builder for a packet with a field of unknown size before the last field is refused. -/
theorem c73_refused {d : PackDesc} (h : ¬ ∀ f ∈ d.fields.dropLast, f.ty.size ≠ none) :
    generateSendCode (packetCode d) = .error "Iterator field must be the last field." := by
  unfold generateSendCode
  have := sendFields_error d.fields 6 h
  rw [show (packetCode d).fields = d.fields.map fieldCode from rfl, this]
  rfl

theorem buildX_send {base : Externs W E} {cs : List Conv} {d : PackDesc} (h : SendLinks (packX base cs d) d) :
    SendLinks (buildX base cs d) d := by
  refine ⟨h.intoFn, h.sync1, h.sync2, h.cls, h.id, h.packetLen, ?_⟩
  intro c out
  have := h.cfgVal c out
  rw [← this]
  unfold buildX
  dsimp only
  split
  · rename_i h; cases h
  · rfl

/-- **C73**, in a program: the functions that the declaration names are themselves generated by the macros
or written by hand, and the functions of the builder call each other. -/
theorem c73_linked {base : Externs W E} {cs : List Conv} (hp : ProgramOk cs) {d : PackDesc}
    (hd : PacketIn cs d) (hb : d.hasBuilder = true) (hn : (d.fields.map FieldDesc.getName).Nodup)
    (hl : ∀ f ∈ d.fields.dropLast, f.ty.size ≠ none)
    (hlt : ∀ size, d.packetPayloadSize = some size → size < 65536) :
    ∃ s, generateSendCode (packetCode d) = .ok s ∧ s.packName = d.name ∧
      s.default = d.defaultForBuilder ∧ s.fields.map Prod.fst = d.fields.map FieldDesc.getName ∧
      ∀ b, BuilderTyped d.fields b → BuilderRuns base cs d b s.body := by
  have hx := packX_send base hp hd hlt
  have hx' := buildX_send hx
  cases hsz : d.packetPayloadSize with
  | some size =>
    obtain ⟨s, ipb, frm, cp, h1, h2, h3, h4, h5, h6⟩ := c73_fixed hsz (hlt _ hsz) hb hn hx
    obtain ⟨s', ipb', frm', cp', h1', -, -, -, h5', h6'⟩ := c73_fixed hsz (hlt _ hsz) hb hn hx'
    rw [h1] at h1'
    cases h1'
    rw [h5] at h5'
    cases h5'
    refine ⟨s, h1, h2, h3, h4, ?_⟩
    intro b ht
    rw [h5]
    obtain ⟨h7, h8, h9⟩ := h6' b ht
    refine ⟨⟨size, hsz, rfl⟩, h7, h8 ?_, h9⟩
    rw [h7, ← (h6 b ht).1]
    obtain ⟨_, _, _, _, _⟩ := s
    cases h5
    simp only [buildX, h1, if_true]
  | none =>
    obtain ⟨s, ipv, ext, h1, h2, h3, h4, h5, h6⟩ := c73_dynamic hsz hl hb hn hx
    obtain ⟨s', ipv', ext', h1', -, -, -, h5', h6'⟩ := c73_dynamic hsz hl hb hn hx'
    rw [h1] at h1'
    cases h1'
    rw [h5] at h5'
    cases h5'
    refine ⟨s, h1, h2, h3, h4, ?_⟩
    intro b ht
    rw [h5]
    obtain ⟨h7, h8⟩ := h6' b ht
    refine ⟨hsz, h8 ?_, h7⟩
    rw [h7, show (buildX base cs d).maxUsize = (packX base cs d).maxUsize from rfl, ← (h6 b ht).1]
    obtain ⟨_, _, _, _, _⟩ := s
    cases h5
    simp only [buildX, h1, builderV, if_true]

theorem crate_send : ∀ d ∈ allPackets, d.hasBuilder = true →
    (∀ f ∈ d.fields.dropLast, f.ty.size ≠ none) ∧ d.packetPayloadSize.getD 0 < 65536 := by decide +kernel

theorem getNames_of_methods {d : PackDesc} (h : (methodNames d).Nodup) :
    (d.fields.map FieldDesc.getName).Nodup := by
  have := getNames_nodup h
  rwa [show (fun g : Getter => g.field.getName) = FieldDesc.getName ∘ (·.field) from rfl,
    ← List.map_map, show d.getters.map (·.field) = d.fields from genGetters_fields _ _ _] at this

/-- **C73** for the crate: every declaration of a packet with a builder is read as one of the descriptions of
`Gen.allPackets`, and the functions that the macros generate for the builder do what the description
says. -/
theorem c73_crate {base : Externs W E} : ∀ s ∈ packetDecls, s.kind ≠ .recv →
    ∃ d ∈ allPackets, ∃ code, Syn.parsePacketDescription s = .ok (packetCode d) ∧ s.kind = d.kind ∧
      generateSendCode (packetCode d) = .ok code ∧ code.packName = d.name ∧
      code.default = d.defaultForBuilder ∧ code.fields.map Prod.fst = d.fields.map FieldDesc.getName ∧
      ∀ b, BuilderTyped d.fields b → BuilderRuns base crateConvs d b code.body := by
  intro s hs hk
  obtain ⟨d, hd, he⟩ := mem_zip_map c67_crate hs
  have hk' : s.kind = d.kind := congrArg Prod.fst he
  have hb : d.hasBuilder = true := by
    rw [hk'] at hk
    unfold PackDesc.hasBuilder
    cases h : d.kind
    · exact absurd h hk
    · rfl
    · rfl
  obtain ⟨hl, hlt⟩ := crate_send d hd hb
  obtain ⟨code, h⟩ := c73_linked crate_program (crate_packets d hd) hb
    (getNames_of_methods (crate_methods d hd)) hl (fun size h => by rw [h] at hlt; exact hlt) (base := base)
  exact ⟨d, hd, code, congrArg Prod.snd he, hk', h⟩

/-! ## C74: enumerations and flags -/

/-- **C74**: code for an enumeration is generated unless `from` is asked for together with `rest_error`, or
`from_unchecked` together with `rest_reserved`. -/
theorem c74_enum_accepted (e : EnumDesc) : (∃ code, generateEnumCode e = .ok code) ↔
    ¬ (e.fromFn = some .from ∧ e.rest = some .errorProne) ∧
    ¬ (e.fromFn = some .fromUnchecked ∧ e.rest = some .reserved) := by
  rw [generateEnumCode_eq]
  split
  · exact ⟨fun ⟨_, h⟩ => (by cases h), fun h => absurd ‹_› h.1⟩
  · split
    · exact ⟨fun ⟨_, h⟩ => (by cases h), fun h => absurd ‹_› h.2⟩
    · exact ⟨fun _ => ⟨‹_›, ‹_›⟩, fun _ => ⟨_, rfl⟩⟩

/-- **C74**: the generated type has the declared variants (and, if asked for, those for all other numbers);
the functions that were asked for are there; and, run on any number or variant, they return what the
declaration says, and panic exactly where the declaration says. -/
theorem c74_enum {e : EnumDesc} {code : EnumCode} (h : generateEnumCode e = .ok code) {x : Externs W E}
    (hx : EnumLinks x code) :
    code.name = e.name ∧ code.variants = (e.allVariants.map fun v => (v.1, v.2.toNat)) ∧
    (code.from_.isSome ↔ e.fromFn = some .from) ∧
    (code.fromUnchecked.isSome ↔ e.fromFn = some .fromUnchecked) ∧
    (code.isValid.isSome ↔ e.fromFn = some .fromUnchecked) ∧
    (code.intoRaw.isSome ↔ e.intoRaw = true) ∧
    (∀ f ∈ code.from_, ∀ b, f.call x [.byte b] = variantV <$> e.from b) ∧
    (∀ f ∈ code.fromUnchecked, ∀ b, f.call x [.byte b] = variantV <$> e.fromUnchecked b) ∧
    (∀ f ∈ code.isValid, ∀ b, f.call x [.byte b] = .ok (.bool (e.isValid b))) ∧
    (∀ f ∈ code.intoRaw, ∀ v, f.call x [variantV v] = .ok (.byte v.2)) ∧
    ∀ v name es, code.serialize.call x [variantV v, .entries name es] =
      .ok (serializedV name es (.u8 v.2)) := by
  have hg := generateEnumCode_eq e
  rw [h] at hg
  split at hg
  · cases hg
  split at hg
  · cases hg
  have hcode := Except.ok.inj hg
  have hv : ∀ v ∈ e.allVariants, x.const (e.name ++ "::" ++ v.1) = .ok (.val (.enum v)) :=
    variant_of_code (by rw [hcode]) (by rw [hcode]) hx
  rw [hcode]
  dsimp only
  refine ⟨rfl, rfl, ?_, ?_, ?_, ?_, ?_, ?_, ?_, ?_, ?_⟩
  · split <;> simp_all
  · split <;> simp_all
  · split <;> simp_all
  · split <;> simp_all
  · intro f hf b
    split at hf
    · cases hf; exact enumFrom_call x b hv
    · cases hf
  · intro f hf b
    split at hf
    · cases hf; exact enumFromUnchecked_call x b hv
    · cases hf
  · intro f hf b
    split at hf
    · cases hf; exact enumIsValid_call x b hx.true_ hx.false_
    · cases hf
  · intro f hf v
    split at hf
    · cases hf; exact enumIntoRaw_call x v
    · cases hf
  · intro v name es
    exact serialize_call x rfl rfl (r := .ok (.u8 v.2)) rfl

/-- **C74**: code for flags is generated exactly if the other bits are declared as reserved, `from_unchecked`
is not asked for, and the constants are different single bits of the type. -/
theorem c74_flags_accepted (d : FlagsDesc) (f : Option FromFn) (r : Option Rest) :
    (∃ code, generateFlagsCode d f r = .ok code) ↔
      r = some .reserved ∧ f ≠ some .fromUnchecked ∧ SingleBits d := by
  rw [← c59_flags_accepted]
  rw [generateFlagsCode_eq]
  split
  · exact ⟨fun ⟨_, h⟩ => (by cases h), fun h => absurd h.1 ‹_›⟩
  · split
    · exact ⟨fun ⟨_, h⟩ => (by cases h), fun h => by simp_all⟩
    · split
      · exact ⟨fun ⟨_, h⟩ => (by cases h), fun h => absurd ‹_› h.2.1⟩
      · exact ⟨fun _ => by simp_all, fun _ => ⟨_, rfl⟩⟩

/-- **C74**: the generated type has one constant per bit, whose expressions have the values of the bits;
the functions that were asked for are there; and, run on any number or set of flags, they return what the
declaration says. -/
theorem c74_flags {d : FlagsDesc} (hn : d.nbits = 8 ∨ d.nbits = 16 ∨ d.nbits = 32) {f : Option FromFn}
    {r : Option Rest} {code : FlagsCode} (h : generateFlagsCode d f r = .ok code) {x : Externs W E}
    (hx : FlagsLinks x d.nbits code) :
    code.name = d.name ∧ code.items.map Prod.fst = d.items.map Prod.fst ∧
    FlagValues x d.nbits code.items (d.items.map Prod.snd) ∧
    (code.from_.isSome ↔ f = some .from) ∧ (code.intoRaw.isSome ↔ d.intoRaw = true) ∧
    (∀ g ∈ code.from_, ∀ (v : RawVal) (n : Nat), v.unsigned? d.nbits = some n →
      g.call x [rawV v] = .ok (flagsV (d.fromBitsTruncate n))) ∧
    (∀ g ∈ code.intoRaw, ∀ n, g.call x [flagsV n] = rawV <$> RawVal.ofUnsigned d.nbits n) ∧
    ∀ n name es, code.serialize.call x [flagsV n, .entries name es] =
      serializedV name es <$> RawVal.ofUnsigned d.nbits n := by
  have hg := generateFlagsCode_eq d f r
  rw [h] at hg
  split at hg
  · cases hg
  split at hg
  · cases hg
  split at hg
  · cases hg
  have hcode := Except.ok.inj hg
  have hi : code.items = itemsCode d := congrArg FlagsCode.items hcode
  have hv : FlagValues x d.nbits code.items (d.items.map (·.2)) := by rw [hi]; exact itemsCode_values x d hn
  have hbits : ∀ n env, getVar .self_ env = some (flagsV n) →
      (Expr.meth (.var .self_) (.user "bits") []).eval x env =
        Ev.lift (rawV <$> RawVal.ofUnsigned d.nbits n) env := by
    intro n env he
    refine eval_meth x (eval_var x he) ?_ ?_
    · have := hx.bits n
      simp only [methV]
      rw [this]
      cases RawVal.ofUnsigned d.nbits n <;> rfl
    · intro y hy; cases hy; exact he
  have hnames : code.items.map Prod.fst = d.items.map Prod.fst := by
    rw [hi]
    unfold itemsCode FlagsDesc.items
    rw [List.map_map, List.map_map]
    refine List.map_congr_left fun bit _ => ?_
    simp only [Function.comp_apply]
    cases d.consts.find? fun c => c.2 == 1 <<< bit <;> rfl
  have h1 : code.from_ = _ := congrArg FlagsCode.from_ hcode
  have h2 : code.intoRaw = _ := congrArg FlagsCode.intoRaw hcode
  have h3 : code.serialize = _ := congrArg FlagsCode.serialize hcode
  refine ⟨congrArg FlagsCode.name hcode, hnames, hv, ?_, ?_, ?_, ?_, ?_⟩
  · rw [h1]; dsimp only; split <;> simp_all
  · rw [h2]; dsimp only; split <;> simp_all
  · intro g hgm v n hvn
    rw [h1] at hgm
    dsimp only at hgm
    split at hgm
    · cases hgm
      refine call_x x rfl rfl ?_
      rw [eval_call (rs := [.ok (rawV v)]) _ _ (.cons (eval_var _ rfl) .nil)]
      have h5 : (seqR [Except.ok (rawV v)] >>= callV x (.user "Self::from_bits_truncate")) =
          x.call "Self::from_bits_truncate" [rawV v] := by
        simp only [seqR, okBind', pure, Except.pure, callV]
      rw [h5, hx.truncate _ hv v n hvn]
      rfl
    · cases hgm
  · intro g hgm n
    rw [h2] at hgm
    dsimp only at hgm
    split at hgm
    · cases hgm
      exact call_self x rfl rfl (hbits n _ rfl)
    · cases hgm
  · intro n name es
    rw [h3]
    exact serialize_call x rfl rfl (hbits n _ rfl)

/-- **C74** for the crate: every declaration of an enumeration is read as one of `Gen.allEnums`; code is
generated for it; and with the names in the generated code standing for its own variants, its functions
return what the declaration says. -/
theorem c74_crate_enums {base : Externs W E} : ∀ s ∈ enumDecls, ∃ e ∈ allEnums, ∃ code,
    Syn.parseUbxEnumType s = .ok e ∧ generateEnumCode e = .ok code ∧
    EnumLinks (enumX base code) code ∧
    (∀ f ∈ code.from_, ∀ b, ∃ v ∈ e.allVariants, v.2 = b ∧
      f.call (enumX base code) [.byte b] = .ok (variantV v)) ∧
    (∀ f ∈ code.fromUnchecked, ∀ g ∈ code.isValid, ∀ b,
      (g.call (enumX base code) [.byte b] = .ok (.bool true) ∧ ∃ v ∈ e.variants, v.2 = b ∧
        f.call (enumX base code) [.byte b] = .ok (variantV v)) ∨
      (g.call (enumX base code) [.byte b] = .ok (.bool false) ∧ (∀ v ∈ e.variants, v.2 ≠ b) ∧
        ∃ p, f.call (enumX base code) [.byte b] = .error p)) ∧
    ∀ f ∈ code.intoRaw, ∀ v, f.call (enumX base code) [variantV v] = .ok (.byte v.2) := by
  intro s hs
  obtain ⟨e, he, hp⟩ := mem_zip_map c69_crate_enums hs
  obtain ⟨⟨code, hc⟩, hn⟩ := crate_program.enums e (by
    simp only [crateConvs, List.mem_append]
    exact .inl (.inl (List.mem_map_of_mem he)))
  have hx := enumX_links base hn hc
  obtain ⟨-, -, h1, h2, -, -, h3, h4, h5, h6, -⟩ := c74_enum hc hx
  refine ⟨e, he, code, hp, hc, hx, ?_, ?_, h6⟩
  · intro f hf b
    have hfrom := h1.mp (by rw [hf]; rfl)
    obtain ⟨v, hv⟩ := EnumDesc.lookup_total ((c27_from_exhaustive e he).1 hfrom) b
    obtain ⟨hm, hb⟩ := EnumDesc.lookup_some hv
    refine ⟨v, hm, hb, ?_⟩
    rw [h3 f hf b, show e.from b = .ok v by unfold EnumDesc.from; rw [hv]]
    rfl
  · intro f hf g hg b
    have hu := h2.mp (by rw [hf]; rfl)
    obtain ⟨h7, h8, h9, h10, -, -⟩ := c28_closed_enums e he ((c27_from_exhaustive e he).2 hu)
    rw [h5 g hg b, h4 f hf b]
    cases hv : e.isValid b with
    | true =>
      obtain ⟨v, hv'⟩ := (h7 b).mp hv
      refine .inl ⟨rfl, v, (h10 b v hv').1, (h10 b v hv').2, ?_⟩
      rw [hv']; rfl
    | false =>
      refine .inr ⟨rfl, ?_, .explicit, ?_⟩
      · intro v hm hvb
        have := (h8 b).mpr ⟨v, hm, hvb⟩
        rw [hv] at this
        cases this
      · rw [h9 b hv]; rfl

theorem unsigned_lt {nbits : Nat} {r : RawVal} {n : Nat} (h : r.unsigned? nbits = some n) : n < 2 ^ nbits := by
  unfold RawVal.unsigned? at h
  split at h
  all_goals first | (cases h; done) | skip
  all_goals
    split at h
    · obtain rfl := Option.some.inj h
      rename_i hb
      rw [hb]
      first | exact UInt8.toNat_lt _ | exact UInt16.toNat_lt _ | exact UInt32.toNat_lt _
    · cases h

/-- **C74** for the crate: every declaration of flags is read as one of `Gen.allFlags`; code is generated for
it; its constants have values; and with the methods of the `bitflags` crate for these values, `from` keeps
all bits, `into_raw` returns them, and so does serialization. -/
theorem c74_crate_flags {base : Externs W E} : ∀ s ∈ flagsDecls, ∃ d ∈ allFlags, ∃ f r code vals,
    Syn.parseBitflags s = .ok (d, f, r) ∧ generateFlagsCode d f r = .ok code ∧
    FlagValues base d.nbits code.items vals ∧
    vals = (List.range d.nbits).map (fun bit => 2 ^ bit) ∧
    (∀ g ∈ code.from_, ∀ (v : RawVal) (n : Nat), v.unsigned? d.nbits = some n →
      g.call (flagsX base d.nbits vals) [rawV v] = .ok (flagsV n)) ∧
    (∀ g ∈ code.intoRaw, ∀ n, g.call (flagsX base d.nbits vals) [flagsV n] =
      rawV <$> RawVal.ofUnsigned d.nbits n) ∧
    ∀ n name es, code.serialize.call (flagsX base d.nbits vals) [flagsV n, .entries name es] =
      serializedV name es <$> RawVal.ofUnsigned d.nbits n := by
  intro s hs
  obtain ⟨d, hd, hp⟩ := mem_zip_map c69_crate_flags hs
  obtain ⟨hn, code, hc⟩ := crate_program.flags d (by
    simp only [crateConvs, List.mem_append]
    exact .inl (.inr (List.mem_map_of_mem hd)))
  have hg := generateFlagsCode_eq d (if d.from_ then some .from else none) (some .reserved)
  have hi : code.items = itemsCode d := by
    rw [hc, if_neg (by simp)] at hg
    split at hg
    · cases hg
    rw [if_neg (by cases d.from_ <;> simp)] at hg
    exact congrArg FlagsCode.items (Except.ok.inj hg)
  have hx := flagsX_links base hn hi
  obtain ⟨-, -, -, -, -, h1, h2, h3⟩ := c74_flags hn hc hx
  refine ⟨d, hd, _, _, code, d.items.map (·.2), hp, hc, ?_, ?_, ?_, h2, h3⟩
  · rw [hi]; exact itemsCode_values base d hn
  · rw [FlagsDesc.items_snd]
    refine List.map_congr_left fun bit _ => ?_
    rw [Nat.one_shiftLeft]
  · intro g hgm v n hv
    rw [h1 g hgm v n hv, FlagsDesc.fromBitsTruncate_eq d (unsigned_lt hv)]

/-! ## Examples -/

/-- A base for programs: 64-bit numbers, and vectors as writers. -/
def exBase : Externs Bytes Unit := noX (2 ^ 64 - 1) 6 (vecWriter Unit)

/-- The hypotheses of C72 hold for NAV-PVT in the crate. -/
example : navPvt_ ∈ allPackets ∧ navPvt_.kind ≠ .send ∧ 65535 ≤ exBase.maxUsize ∧
    navPvt_.parse = .ok navPvt_ ∧ (methodNames navPvt_).Nodup ∧ SizesFit exBase.maxUsize navPvt_ ∧
    RecvLinks (packX exBase crateConvs navPvt_) navPvt_ ∧ ProgramOk crateConvs ∧
    PacketIn crateConvs navPvt_ := by
  have hd : navPvt_ ∈ allPackets := by decide +kernel
  have hM : 65535 ≤ exBase.maxUsize := by decide
  obtain ⟨h1, -, h3⟩ := crate_recv _ hd
  exact ⟨hd, by decide, hM, h1, crate_methods _ hd, sizesFit_mono h3 hM,
    packX_recv exBase crate_program (crate_packets _ hd), crate_program, crate_packets _ hd⟩

/-- The generated code of ACK-ACK: a payload of a wrong length, and the accessors. -/
example : recvMethod exBase crateConvs ackAck_ "validate" [.bytes [6]] =
      .ok (.err (parserErrorV (.invalidPacketLen "AckAck" 2 1))) ∧
    recvMethod exBase crateConvs ackAck_ "validate" [.bytes [6, 1]] = .ok (.ok .unit) ∧
    recvMethod exBase crateConvs ackAck_ "msg_id" [refV "AckAck" [6, 1]] = .ok (.byte 1) :=
  ⟨rfl, rfl, rfl⟩

/-- The hypotheses of C73 hold for CFG-RATE in the crate, with the builder of C17. -/
example : cfgRate_ ∈ allPackets ∧ cfgRate_.hasBuilder = true ∧ cfgRate_.packetPayloadSize = some 6 ∧
    (cfgRate_.fields.map FieldDesc.getName).Nodup ∧ BuilderTyped cfgRate_.fields exRate ∧
    SendLinks (packX exBase crateConvs cfgRate_) cfgRate_ := by
  have hd : cfgRate_ ∈ allPackets := by decide +kernel
  refine ⟨hd, rfl, rfl, getNames_of_methods (crate_methods _ hd), ?_, ?_⟩
  · refine .cons ?_ (.cons ?_ (.cons ?_ .nil))
    · rfl
    · rfl
    · trivial
  · refine packX_send exBase crate_program (crate_packets _ hd) ?_
    intro size h
    cases h
    decide

/-- The hypotheses of C73 for packets without fixed length hold for CFG-VALSET. -/
example : cfgValSet_ ∈ allPackets ∧ cfgValSet_.hasBuilder = true ∧ cfgValSet_.packetPayloadSize = none ∧
    (∀ f ∈ cfgValSet_.fields.dropLast, f.ty.size ≠ none) := by
  decide +kernel

/-- A declaration of a builder with an iterator in the middle. -/
example : ¬ ∀ f ∈ ({ cfgValSet_ with fields := cfgValSet_.fields ++ cfgValSet_.fields } : PackDesc).fields.dropLast,
    f.ty.size ≠ none := by decide +kernel

/-- The generated code of an enumeration of the crate, with its own variants. -/
example : ∃ code, generateEnumCode gpsFix_ = .ok code ∧ EnumLinks (enumX exBase code) code ∧
    ∃ f ∈ code.from_, f.call (enumX exBase code) [.byte 3] = .ok (variantV ("Fix3D", 3)) := by
  obtain ⟨⟨code, hc⟩, hn⟩ := crate_program.enums gpsFix_ (by
    simp only [crateConvs, List.mem_append]
    exact .inl (.inl (List.mem_map_of_mem (by decide +kernel))))
  have hx := enumX_links exBase hn hc
  obtain ⟨-, -, h1, -, -, -, h3, -⟩ := c74_enum hc hx
  have hs := h1.mpr rfl
  obtain ⟨f, hf⟩ := Option.isSome_iff_exists.mp hs
  exact ⟨code, hc, hx, f, hf, (h3 f hf 3).trans rfl⟩

/-- Flags of the crate meet the conditions. -/
example : allFlags ≠ [] ∧ ∀ d ∈ allFlags, SingleBits d ∧ (d.nbits = 8 ∨ d.nbits = 16 ∨ d.nbits = 32) := by
  refine ⟨by decide +kernel, fun d hd => ⟨?_, ?_⟩⟩
  · rw [← c59_flags_accepted]
    revert d
    decide +kernel
  · revert d
    decide +kernel

end Ublox.Props
