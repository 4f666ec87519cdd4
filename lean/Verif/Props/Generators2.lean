import Verif.Lemmas.EmitSend3
import Verif.Lemmas.EmitParse
import Verif.Lemmas.EmitFlags
import Verif.Props.Generators
import Verif.Props.CodegenParse

/-!
# C96: the other code generators in the text of `output.rs` emit the code of the model

The code for sending packets, for the list of packets, for enumerations and for flags.
-/

set_option autoImplicit false

namespace Ublox.Props

open Code (Tk)
open Emit
open Quote (Fn V O run stuck flatAll emitted packV recvV enumV flagsV)
open Syn (PackField)

/-- What a function of the file that returns a `Result` returns: tokens, or an error -/
def returned (fs : List Fn) (n : Code.Name) (args : List V) : O (Option (List Tk)) :=
  match run fs 3 n args with
  | .ok (.ok (.toks ns)) => .ok (some (flatAll ns))
  | .ok .err => .ok none
  | .ok _ => stuck
  | .error e => .error e

section

variable {fs : List Fn} (hfs : IsOutput fs)

include hfs

/-- **C96**: for every packet, `generate_send_code_for_packet` emits the tokens of the code of the model, with its
documentation; and it panics where the model has an error. -/
theorem c96_send (doc : List Nat) (docs : PackField → List Nat) (d : Syn.PackDesc) (hd : NamesOk d) :
    (∀ code, Rust.generateSendCode d = .ok code →
      emitted fs i!"generate_send_code_for_packet" [.pack (packV doc docs d)] = .ok (sendToks doc docs d code)) ∧
    (∀ e, Rust.generateSendCode d = .error e →
      emitted fs i!"generate_send_code_for_packet" [.pack (packV doc docs d)] = .error .panic) := by
  rw [isOutput_iff] at hfs
  subst hfs
  have h := Quote.emits_send 1 doc docs d hd
  constructor
  · intro code hc
    rw [hc] at h
    exact h.emitted
  · intro e he
    rw [he] at h
    rw [emitted, h]

/-- **C96**: for every list of packets, `generate_code_for_parse` emits the tokens of the code of the model. -/
theorem c96_list (r : Syn.RecvPackets) (hr : ListOk r) :
    emitted fs i!"generate_code_for_parse" [.recv (recvV r)] = .ok (parseToks (Rust.generateParseCode r)) := by
  rw [isOutput_iff] at hfs
  subst hfs
  exact (Quote.emits_parse 2 r hr).emitted

/-- **C96**: for every enumeration, `generate_code_to_extend_enum` emits the tokens of the code of the model, with
its attributes; and it panics where the model has an error. -/
theorem c96_enum (attrs : List (List Tk)) (e : EnumDesc) (he : EnumOk e) :
    (∀ code, Rust.generateEnumCode e = .ok code →
      emitted fs i!"generate_code_to_extend_enum" [.enum (enumV attrs e)] = .ok (enumToks attrs code)) ∧
    (∀ m, Rust.generateEnumCode e = .error m →
      emitted fs i!"generate_code_to_extend_enum" [.enum (enumV attrs e)] = .error .panic) := by
  rw [isOutput_iff] at hfs
  subst hfs
  have h := Quote.emits_enum 2 attrs e he
  constructor
  · intro code hc
    rw [hc] at h
    exact h.emitted
  · intro m hm
    rw [hm] at h
    rw [emitted, h]

/-- **C96**: for all flags of at most 64 bits, `generate_code_to_extend_bitflags` returns the tokens of the code of
the model, with their attributes and their visibility; where the model has an error it returns an error, except that it
panics for `from_unchecked`. -/
theorem c96_flags (attrs : List (List Tk)) (vis : List Tk) (constAttrs : String → List (List Tk)) (d : FlagsDesc)
    (fromFn : Option FromFn) (rest : Option Rest) (hd : d.nbits ≤ 64) :
    (∀ code, Rust.generateFlagsCode d fromFn rest = .ok code →
      returned fs i!"generate_code_to_extend_bitflags" [.flags (flagsV attrs vis constAttrs d fromFn rest)] =
        .ok (some (flagsToks attrs vis constAttrs d code))) ∧
    (∀ m, Rust.generateFlagsCode d fromFn rest = .error m →
      returned fs i!"generate_code_to_extend_bitflags" [.flags (flagsV attrs vis constAttrs d fromFn rest)] =
        if m = "not implemented" then .error .panic else .ok none) := by
  rw [isOutput_iff] at hfs
  subst hfs
  have h := Quote.emits_flags 2 attrs vis constAttrs d fromFn rest hd
  constructor
  · intro code hc
    rw [hc] at h
    obtain ⟨ns, h, ht⟩ := h
    rw [returned, h, ← ht]
  · intro m hm
    rw [hm] at h
    rw [returned, h]
    by_cases hn : m = "not implemented" <;> simp [hn]

end

/-! ## Cases -/

/-- A packet of two fields that is sent -/
def sampleSent : Syn.PackDesc :=
  { samplePacket with
    header := { cls := 1, id := 2, payloadLen := .fixed 5, flags := [.defaultForBuilder] }
    fields := samplePacket.fields.take 2 }

example : NamesOk sampleSent ∧ (Rust.generateSendCode sampleSent).isOk = true := by decide +kernel

example : NamesOk samplePacket ∧ (Rust.generateSendCode samplePacket).isOk = true := by decide +kernel

example : NamesOk wrongPacket ∧ (Rust.generateSendCode wrongPacket).isOk = false := by decide +kernel

/-- A list of two packets -/
def sampleList : Syn.RecvPackets := ⟨"PacketRef", "UnknownPacketRef", ["A", "B"]⟩

example : ListOk sampleList := by decide +kernel

/-- An enumeration of two variants -/
def sampleEnum : EnumDesc :=
  { name := "Fix", variants := [("No", 0), ("Yes", 5)], fromFn := some .from, intoRaw := true, rest := some .reserved }

example : EnumOk sampleEnum ∧ (Rust.generateEnumCode sampleEnum).isOk = true := by decide +kernel

example : EnumOk { sampleEnum with rest := some .errorProne } ∧
    (Rust.generateEnumCode { sampleEnum with rest := some .errorProne }).isOk = false := by decide +kernel

/-- Flags of eight bits -/
def sampleFlags : FlagsDesc :=
  { name := "Flags", nbits := 8, from_ := true, intoRaw := true, consts := [("A", 1), ("B", 64)] }

example : sampleFlags.nbits ≤ 64 ∧ (Rust.generateFlagsCode sampleFlags (some .from) (some .reserved)).isOk = true ∧
    (Rust.generateFlagsCode { sampleFlags with consts := [("A", 3)] } (some .from) (some .reserved)).isOk = false ∧
    (Rust.generateFlagsCode sampleFlags (some .fromUnchecked) (some .reserved)).isOk = false ∧
    (Rust.generateFlagsCode sampleFlags (some .from) none).isOk = false := by decide +kernel

/-! ## The crate -/

theorem crate_list_ok : ∃ r, Syn.parseIdentsList Gen.recvDecl = .ok r ∧ ListOk r :=
  ⟨_, c69_crate_list, by decide +kernel⟩

theorem crate_enums_ok : ∀ e ∈ Gen.allEnums, EnumOk e := by decide +kernel

theorem crate_flags_ok : ∀ d ∈ Gen.allFlags, d.nbits ≤ 64 := by decide +kernel

/-- **C96**, for the packets of the crate: the text of `output.rs` makes of every declaration of a packet with a builder
the code whose functions C73 describes. -/
theorem c96_crate_send {W E : Type} {base : Rust.Externs W E} {fs : List Fn} (hfs : IsOutput fs) (doc : List Nat)
    (docs : PackField → List Nat) :
    ∀ s ∈ Gen.packetDecls, s.kind ≠ .recv → ∃ p code, Syn.parsePacketDescription s = .ok p ∧
      emitted fs i!"generate_send_code_for_packet" [.pack (packV doc docs p)] = .ok (sendToks doc docs p code) ∧
      ∃ d ∈ Gen.allPackets, p = Spec.packetCode d ∧
        ∀ b, Spec.BuilderTyped d.fields b → Rust.BuilderRuns base Rust.crateConvs d b code.body := by
  intro s hs hk
  obtain ⟨d, hd, code, hp, _, hc, _, _, _, hb⟩ := c73_crate (base := base) s hs hk
  exact ⟨_, code, hp, (c96_send hfs doc docs _ (crate_names d hd)).1 code hc, d, hd, rfl, hb⟩

/-- **C96**, for the list of packets of the crate. -/
theorem c96_crate_list {fs : List Fn} (hfs : IsOutput fs) :
    ∃ r, Syn.parseIdentsList Gen.recvDecl = .ok r ∧
      emitted fs i!"generate_code_for_parse" [.recv (recvV r)] = .ok (parseToks (Rust.generateParseCode r)) := by
  obtain ⟨r, h, hr⟩ := crate_list_ok
  exact ⟨r, h, c96_list hfs r hr⟩

/-- **C96**, for the enumerations of the crate. -/
theorem c96_crate_enums {fs : List Fn} (hfs : IsOutput fs) (attrs : List (List Tk)) :
    ∀ s ∈ Gen.enumDecls, ∃ e code, Syn.parseUbxEnumType s = .ok e ∧ Rust.generateEnumCode e = .ok code ∧
      emitted fs i!"generate_code_to_extend_enum" [.enum (enumV attrs e)] = .ok (enumToks attrs code) := by
  intro s hs
  obtain ⟨e, he, code, hp, hc, _⟩ := c74_crate_enums (base := exBase) s hs
  exact ⟨e, code, hp, hc, (c96_enum hfs attrs e (crate_enums_ok e he)).1 code hc⟩

/-- **C96**, for the flags of the crate. -/
theorem c96_crate_flags {fs : List Fn} (hfs : IsOutput fs) (attrs : List (List Tk)) (vis : List Tk)
    (constAttrs : String → List (List Tk)) :
    ∀ s ∈ Gen.flagsDecls, ∃ d f r code, Syn.parseBitflags s = .ok (d, f, r) ∧ Rust.generateFlagsCode d f r = .ok code ∧
      returned fs i!"generate_code_to_extend_bitflags" [.flags (flagsV attrs vis constAttrs d f r)] =
        .ok (some (flagsToks attrs vis constAttrs d code)) := by
  intro s hs
  obtain ⟨d, hd, f, r, code, _, hp, hc, _⟩ := c74_crate_flags (base := exBase) s hs
  exact ⟨d, f, r, code, hp, hc, (c96_flags hfs attrs vis constAttrs d f r (crate_flags_ok d hd)).1 code hc⟩

end Ublox.Props
