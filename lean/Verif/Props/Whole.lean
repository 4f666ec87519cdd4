import Verif.Props.Macros
import Verif.Props.Source
import Verif.Props.Codegen
import Verif.Props.CodegenParse

/-!
# C99: from the text of the source files to the behaviour

The characters of `packets.rs` are read as declarations (C89); the macros in the characters of `lib.rs`, with the
generators in the characters of `output.rs`, expand them (C98); and the code that the expansion consists of, executed, does
what the declaration says (C72-C75).
-/

set_option autoImplicit false

namespace Ublox.Props

open Emit Rust
open Code (Tk)
open Lib (Decl Extras expand)
open Gen (packetsRs allPackets allEnums allFlags recvPackets)
open Src (codes itemsOf)
open Spec (Valid packetCode BuilderTyped methodNames refV valV rawV packetRefV variantV flagsV FlagValues serializedV)
open Spec.Source

/-- The items that call a macro, in the text of `packets.rs` -/
def IsPackets (l : List Src.Item) : Prop := itemsOf (codes (String.join packetsRs)) = some l

/-- **C99**: the text can be read. -/
theorem c99_readable : ∃ l, IsPackets l := by
  obtain ⟨l, h, _⟩ := c89_declarations
  exact ⟨l, h⟩

theorem isPackets_decls {l : List Src.Item} (h : IsPackets l) :
    packetsOf l = Gen.packetDecls ∧ enumsOf l = Gen.enumDecls ∧ flagDeclsOf l = Gen.flagsDecls ∧
      listsOf l = [Gen.recvDecl] := by
  obtain ⟨l', h', hd⟩ := c89_declarations
  rw [IsPackets, h'] at h
  cases h
  exact hd

section

variable {W E : Type} {base : Externs W E} {fs : List Meth.Fn} {out : List Quote.Fn} {l : List Src.Item}

/-- **C99**, receiving: the expansion of a packet that can be received ends with the code of its view, and the methods in
this code return what the declaration says; `validate` accepts exactly the valid payloads. -/
theorem c99_receiving (hfs : IsLib fs) (hout : IsOutput out) (hl : IsPackets l) (x : Extras)
    (hM : 65535 ≤ base.maxUsize) : ∀ s ∈ packetsOf l, s.kind ≠ .send →
    ∃ d ∈ allPackets, ∃ ts pre code, Syn.parsePacketDescription s = .ok (packetCode d) ∧ s.kind = d.kind ∧
      expand x out fs (packetMacro s.kind) (.struct s) = .ok (some ts) ∧
      ts = pre ++ recvToks x.doc x.docs (packetCode d) code ∧
      generateRecvCode (packetCode d) = .ok code ∧ code.methods.map FnDecl.name = methodNames d ∧
      (∀ f ∈ d.fields, ∀ payload, recvMethod base crateConvs d f.getName [refV d.name payload] =
        valV <$> d.get f.getName payload) ∧
      (∀ f ∈ d.fields, f.map.isSome → f.ty.size.isSome → ∀ payload,
        recvMethod base crateConvs d (f.getName ++ "_raw") [refV d.name payload] =
          rawV <$> d.getRaw f.getName payload) ∧
      (∀ payload, recvMethod base crateConvs d "as_bytes" [refV d.name payload] = .ok (.bytes payload)) ∧
      ∀ payload, ∃ v : V W E, recvMethod base crateConvs d "validate" [.bytes payload] = .ok v ∧
        (v = .ok .unit ↔ Valid d payload) := by
  intro s hs hk
  rw [(isPackets_decls hl).1] at hs
  obtain ⟨d, hd, code, hp, hkd, hc, hm, h1, h2, -, h4⟩ := c72_crate hM s hs
  obtain ⟨d', ts, hp', ht, he⟩ := (c98_crate hfs hout x).1 s hs
  have : d' = packetCode d := by
    rw [hp] at hp'
    exact (Except.ok.inj hp').symm
  subst this
  obtain ⟨pre, hpre⟩ : ∃ pre, ts = pre ++ recvToks x.doc x.docs (packetCode d) code := by
    cases hks : s.kind with
    | send => exact absurd hks hk
    | recv =>
      simp only [packetTokens, hks, hc, Except.map] at ht
      cases ht
      exact ⟨_, rfl⟩
    | recvSend =>
      simp only [packetTokens, hks, hc] at ht
      cases hsend : generateSendCode (packetCode d) with
      | error e => simp [hsend] at ht
      | ok c =>
        simp only [hsend] at ht
        cases ht
        exact ⟨_, rfl⟩
  exact ⟨d, hd, ts, pre, code, hp, hkd, he, hpre, hc, hm, h1, h2, h4,
    fun payload => c72_validate hM hd (hkd ▸ hk) payload⟩

/-- **C99**, sending: the expansion of a packet that can be sent has the constants of the packet and then the code of its
builder, and the functions in this code do what the declaration says. -/
theorem c99_sending (hfs : IsLib fs) (hout : IsOutput out) (hl : IsPackets l) (x : Extras) :
    ∀ s ∈ packetsOf l, s.kind ≠ .recv →
    ∃ d ∈ allPackets, ∃ ts post code, Syn.parsePacketDescription s = .ok (packetCode d) ∧ s.kind = d.kind ∧
      expand x out fs (packetMacro s.kind) (.struct s) = .ok (some ts) ∧
      ts = typesToks x.doc (packetCode d) ++ sendToks x.doc x.docs (packetCode d) code ++ post ∧
      generateSendCode (packetCode d) = .ok code ∧ code.packName = d.name ∧
      code.default = d.defaultForBuilder ∧ code.fields.map Prod.fst = d.fields.map FieldDesc.getName ∧
      ∀ b, BuilderTyped d.fields b → BuilderRuns base crateConvs d b code.body := by
  intro s hs hk
  rw [(isPackets_decls hl).1] at hs
  obtain ⟨d, hd, code, hp, hkd, hc, h⟩ := c73_crate (base := base) s hs hk
  obtain ⟨d', ts, hp', ht, he⟩ := (c98_crate hfs hout x).1 s hs
  have : d' = packetCode d := by
    rw [hp] at hp'
    exact (Except.ok.inj hp').symm
  subst this
  obtain ⟨post, hpost⟩ : ∃ post,
      ts = typesToks x.doc (packetCode d) ++ sendToks x.doc x.docs (packetCode d) code ++ post := by
    cases hks : s.kind with
    | recv => exact absurd hks hk
    | send =>
      simp only [packetTokens, hks, hc, Except.map] at ht
      cases ht
      exact ⟨[], (List.append_nil _).symm⟩
    | recvSend =>
      simp only [packetTokens, hks, hc] at ht
      cases hr : generateRecvCode (packetCode d) with
      | error e => simp [hr] at ht
      | ok c =>
        simp only [hr] at ht
        cases ht
        exact ⟨_, rfl⟩
  exact ⟨d, hd, ts, post, code, hp, hkd, he, hpost, hc, h⟩

/-- **C99**, dispatch: there is one list of packets; in its expansion `match_packet` returns for any class, id and payload
the first packet of the list with this class and id for which the payload is valid, and the unknown packet if there is
none. -/
theorem c99_dispatch (hfs : IsLib fs) (hout : IsOutput out) (hl : IsPackets l) (x : Extras)
    (hM : 65535 ≤ base.maxUsize) : ∃ ts r, listsOf l = [ts] ∧ Syn.parseIdentsList ts = .ok r ∧
    expand x out fs i!"define_recv_packets" (.list ts) = .ok (some (parseToks (generateParseCode r))) ∧
    ∀ cls id payload, ∃ q,
      (generateParseCode r).matchPacket.call (parseX base crateConvs recvPackets)
        [.byte cls, .byte id, .bytes payload] = .ok (.ok (packetRefV r q)) ∧
      ((q = .unknown payload cls id ∧ ∀ e ∈ recvPackets, e.cls = cls → e.id = id → ¬ Valid e payload) ∨
        ∃ pre d post, q = .known d payload ∧ recvPackets = pre ++ d :: post ∧
          d.cls = cls ∧ d.id = id ∧ Valid d payload ∧
          ∀ e ∈ pre, e.cls = cls → e.id = id → ¬ Valid e payload) := by
  obtain ⟨r, hr, he⟩ := (c98_crate hfs hout x).2.2.2
  refine ⟨_, r, (isPackets_decls hl).2.2.2, hr, he, fun cls id payload => ?_⟩
  obtain ⟨r', q, hr', h, -, hq⟩ := c75_dispatch hM cls id payload
  rw [hr] at hr'
  cases hr'
  exact ⟨q, h, hq⟩

/-- **C99**, enumerations: in the expansion `from` gives the variant with the code, `is_valid` and `from_unchecked` agree on
the codes that have a variant, and `into_raw` returns the code. -/
theorem c99_enums (hfs : IsLib fs) (hout : IsOutput out) (hl : IsPackets l) (x : Extras) :
    ∀ s ∈ enumsOf l, ∃ e ∈ allEnums, ∃ code, Syn.parseUbxEnumType s = .ok e ∧
      expand x out fs i!"ubx_extend" (.enum s) = .ok (some (enumToks x.attrs code)) ∧
      (∀ f ∈ code.from_, ∀ b, ∃ v ∈ e.allVariants, v.2 = b ∧
        f.call (enumX base code) [.byte b] = .ok (variantV v)) ∧
      (∀ f ∈ code.fromUnchecked, ∀ g ∈ code.isValid, ∀ b,
        (g.call (enumX base code) [.byte b] = .ok (.bool true) ∧ ∃ v ∈ e.variants, v.2 = b ∧
          f.call (enumX base code) [.byte b] = .ok (variantV v)) ∨
        (g.call (enumX base code) [.byte b] = .ok (.bool false) ∧ (∀ v ∈ e.variants, v.2 ≠ b) ∧
          ∃ p, f.call (enumX base code) [.byte b] = .error p)) ∧
      ∀ f ∈ code.intoRaw, ∀ v, f.call (enumX base code) [variantV v] = .ok (.byte v.2) := by
  intro s hs
  rw [(isPackets_decls hl).2.1] at hs
  obtain ⟨e, he, code, hp, hc, _, h⟩ := c74_crate_enums (base := base) s hs
  obtain ⟨e', code', hp', hc', hx⟩ := (c98_crate hfs hout x).2.1 s hs
  rw [hp] at hp'
  cases Except.ok.inj hp'
  rw [hc] at hc'
  cases Except.ok.inj hc'
  exact ⟨e, he, code, hp, hx, h⟩

/-- **C99**, flags: in the expansion `from` keeps all bits, and `into_raw` and serialization return them. -/
theorem c99_flags (hfs : IsLib fs) (hout : IsOutput out) (hl : IsPackets l) (x : Extras) :
    ∀ s ∈ flagDeclsOf l, ∃ d ∈ allFlags, ∃ f r code, Syn.parseBitflags s = .ok (d, f, r) ∧
      expand x out fs i!"ubx_extend_bitflags" (.macro true s) =
        .ok (some (flagsToks x.attrs x.vis x.constAttrs d code)) ∧
      ∃ vals, FlagValues base d.nbits code.items vals ∧ vals = (List.range d.nbits).map (fun bit => 2 ^ bit) ∧
        (∀ g ∈ code.from_, ∀ (v : RawVal) (n : Nat), v.unsigned? d.nbits = some n →
          g.call (flagsX base d.nbits vals) [rawV v] = .ok (flagsV n)) ∧
        (∀ g ∈ code.intoRaw, ∀ n, g.call (flagsX base d.nbits vals) [flagsV n] =
          rawV <$> RawVal.ofUnsigned d.nbits n) ∧
        ∀ n name es, code.serialize.call (flagsX base d.nbits vals) [flagsV n, .entries name es] =
          serializedV name es <$> RawVal.ofUnsigned d.nbits n := by
  intro s hs
  rw [(isPackets_decls hl).2.2.1] at hs
  obtain ⟨d, hd, f, r, code, vals, hp, hc, h⟩ := c74_crate_flags (base := base) s hs
  obtain ⟨d', f', r', code', hp', hc', hx⟩ := (c98_crate hfs hout x).2.2.1 s hs
  rw [hp] at hp'
  cases Except.ok.inj hp'
  rw [hc] at hc'
  cases Except.ok.inj hc'
  exact ⟨d, hd, f, r, code, hp, hx, vals, h⟩

end

/-- The hypotheses are met: all three texts can be read, and there are declarations of each kind. -/
example : ∃ l fs out, IsPackets l ∧ IsLib fs ∧ IsOutput out ∧ 65535 ≤ exBase.maxUsize ∧
    (∃ s ∈ packetsOf l, s.kind = .recv) ∧ (∃ s ∈ packetsOf l, s.kind = .send) ∧
    (∃ s ∈ packetsOf l, s.kind = .recvSend) ∧ enumsOf l ≠ [] ∧ flagDeclsOf l ≠ [] := by
  obtain ⟨l, hl⟩ := c99_readable
  obtain ⟨fs, hfs⟩ := c98_readable
  obtain ⟨out, hout⟩ := c95_readable
  refine ⟨l, fs, out, hl, hfs, hout, by decide, ?_⟩
  obtain ⟨h1, h2, h3, -⟩ := isPackets_decls hl
  rw [h1, h2, h3]
  decide +kernel

end Ublox.Props
