import Verif.Lemmas.EmitRecv2
import Verif.Lemmas.GenQuote
import Verif.Props.Codegen

/-!
# C95: the code generators in the text of `output.rs` emit the code of the model

`Quote.fnsOf` finds the functions in the text of `ublox_derive/src/output.rs`, `Quote.emitted` executes one of them
and returns the tokens that it emits.  `Emit` has the tokens of the code of the model.
-/

set_option autoImplicit false

namespace Ublox.Props

open Emit
open Quote (Fn fnsOf emitted packV fieldV)
open Syn (PackField)

/-- The functions in the text of `output.rs` -/
def IsOutput (fs : List Fn) : Prop := fnsOf (Src.codes (String.join Gen.outputRs)) = some fs

theorem isOutput_iff {fs : List Fn} : IsOutput fs ↔ fs = Gen.outputRs_fns := by
  rw [IsOutput, Gen.outputRs_fnsOf, Option.some.injEq, eq_comm]

/-- **C95**: the text can be read. -/
theorem c95_readable : ∃ fs, IsOutput fs := ⟨_, isOutput_iff.mpr rfl⟩

section

variable {fs : List Fn} (hfs : IsOutput fs) (doc : List Nat) (docs : PackField → List Nat) (d : Syn.PackDesc)

include hfs

/-- **C95**: for every packet, the tokens of `generate_types_for_packet` are those of the constants of the
model. -/
theorem c95_types : emitted fs i!"generate_types_for_packet" [.pack (packV doc docs d)] = .ok (typesToks doc d) := by
  rw [isOutput_iff] at hfs
  subst hfs
  exact (Quote.emits_types 2 doc docs d).emitted

/-- **C95**: for every packet, `generate_recv_code_for_packet` emits the tokens of the code of the model, with its
documentation, one method per method of the model; and it panics where the model has an error. -/
theorem c95_recv (hd : NamesOk d) :
    (∀ code, Rust.generateRecvCode d = .ok code → (recvHeads docs d).length = code.methods.length ∧
      emitted fs i!"generate_recv_code_for_packet" [.pack (packV doc docs d)] = .ok (recvToks doc docs d code)) ∧
    (∀ e, Rust.generateRecvCode d = .error e →
      emitted fs i!"generate_recv_code_for_packet" [.pack (packV doc docs d)] = .error .panic) := by
  rw [isOutput_iff] at hfs
  subst hfs
  have h := Quote.emits_recv 1 doc docs d hd
  constructor
  · intro code hc
    rw [hc] at h
    exact ⟨Quote.recv_heads hc, h.emitted⟩
  · intro e he
    rw [he] at h
    rw [emitted, h]

end

/-- A packet with a field of four bytes, one with a conversion, and the rest of the payload -/
def samplePacket : Syn.PackDesc :=
  { name := "Sample"
    header := { cls := 1, id := 2, payloadLen := .max 100, flags := [] }
    fields :=
      [{ name := "a", ty := .path [.u32], map := ⟨none, none, none, false, false⟩, sizeBytes := some 4 },
       { name := "b", ty := .path [.u8]
         map := { mapType := some { ty := .path [.name "Fix"], fromFn := .custom [.name "Fix", .name "from"]
                                    isValidFn := .custom [.name "ok"], intoFn := .custom [.name "into"], sizeFn := none }
                  scale := none, «alias» := none, convertMayFail := true, getAsRef := false }, sizeBytes := some 1 },
       { name := "rest", ty := .slice (.path [.u8]), map := ⟨none, none, none, false, false⟩, sizeBytes := none }] }

example : NamesOk samplePacket ∧ (Rust.generateRecvCode samplePacket).isOk = true := by decide +kernel

/-- The rest of the payload before another field -/
def wrongPacket : Syn.PackDesc :=
  { samplePacket with fields := samplePacket.fields.reverse }

example : NamesOk wrongPacket ∧ (Rust.generateRecvCode wrongPacket).isOk = false := by decide +kernel

theorem crate_names : ∀ d ∈ Gen.allPackets, NamesOk (Spec.packetCode d) := by decide +kernel

theorem crate_generates : ∀ d ∈ Gen.allPackets, (Rust.generateRecvCode (Spec.packetCode d)).isOk = true := by decide +kernel

/-- **C95**, for the packets of the crate: the text of `output.rs` makes of every one of them the code whose methods
C72 describes. -/
theorem c95_crate {fs : List Fn} (hfs : IsOutput fs) (doc : List Nat) (docs : PackField → List Nat) :
    ∀ d ∈ Gen.allPackets, ∃ code, Rust.generateRecvCode (Spec.packetCode d) = .ok code ∧
      emitted fs i!"generate_recv_code_for_packet" [.pack (packV doc docs (Spec.packetCode d))] =
        .ok (recvToks doc docs (Spec.packetCode d) code) ∧
      emitted fs i!"generate_types_for_packet" [.pack (packV doc docs (Spec.packetCode d))] =
        .ok (typesToks doc (Spec.packetCode d)) := by
  intro d hd
  have hn := crate_names d hd
  cases hc : Rust.generateRecvCode (Spec.packetCode d) with
  | error e => simpa [hc, Except.isOk, Except.toBool] using crate_generates d hd
  | ok code => exact ⟨code, rfl, ((c95_recv hfs doc docs _ hn).1 code hc).2, c95_types hfs doc docs _⟩

end Ublox.Props
