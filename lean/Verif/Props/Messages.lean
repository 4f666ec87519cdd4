import Verif.Lemmas.Messages
import Verif.Props.ErrorText

/-!
# C100: the texts of errors are those in the text of `error.rs`

`Msg.messagesOf` reads the implementations of `Display` out of the text of `ublox/src/error.rs`, `Msg.display` is what
they write for an error.
-/

set_option autoImplicit false

namespace Ublox.Props

open Msg (messagesOf display parserErrorV dateTimeErrorV memWriterErrorV)
open Spec (Message Named dateMessages memMessage memPrefix)
open Src (codes)

/-- The arms of the implementations of `Display` in the text of `error.rs` -/
def IsErrors (arms : List Msg.Arm) : Prop := messagesOf (codes Gen.errorRs) = some arms

theorem isErrors_iff {arms : List Msg.Arm} : IsErrors arms ↔ arms = Msg.arms := by
  rw [IsErrors, Msg.errorRs_arms, Option.some.injEq, eq_comm]

/-- **C100**: the text can be read. -/
theorem c100_readable : ∃ arms, IsErrors arms := ⟨_, isErrors_iff.mpr rfl⟩

theorem codes_injective {a b : String} (h : codes a = codes b) : a = b := by
  have : Function.Injective Char.toNat := fun x y h => Char.ext (UInt32.toNat_inj.mp h)
  exact String.toList_inj.mp ((List.map_inj_right (fun _ _ h => this h)).mp h)

/-- The enumerations in the text of `error.rs` -/
def IsDecls (ds : List (Code.Name × List Msg.Variant)) : Prop := Msg.declsOf (codes Gen.errorRs) = some ds

theorem isDecls_iff {ds : List (Code.Name × List Msg.Variant)} : IsDecls ds ↔ ds = Msg.decls := by
  rw [IsDecls, Msg.errorRs_decls, Option.some.injEq, eq_comm]

/-- Values of the types that occur: `u16`, `usize` (of any size), `&'static str`, and the type parameter `E` -/
inductive OfType : Code.Name → Msg.Arg → Prop
  | u16 {n : Nat} (h : n < 65536) : OfType i!"u16" (.num n)
  | usize (n : Nat) : OfType i!"usize" (.num n)
  | str (cs : List Nat) : OfType i!"str" (.text cs)
  | param (cs : List Nat) : OfType i!"E" (.text cs)

/-- A value of a declared enumeration -/
def Declared (ds : List (Code.Name × List Msg.Variant)) (v : Msg.Val) : Prop :=
  ∃ vs ms, (v.owner, vs) ∈ ds ∧ (v.variant, ms) ∈ vs ∧
    List.Forall₂ (fun m a => m.1 = a.1 ∧ OfType m.2 a.2) ms v.members

/-- **C100**: the errors of the model are values of the enumerations in the text, ... -/
theorem c100_declared {ds : List (Code.Name × List Msg.Variant)} (hd : IsDecls ds) :
    (∀ e, Declared ds (parserErrorV e)) ∧ (∀ e, Declared ds (dateTimeErrorV e)) ∧
    ∀ (E : Type) (text : E → String) e, Declared ds (memWriterErrorV text e) := by
  rw [isDecls_iff] at hd
  subst hd
  refine ⟨fun e => ?_, fun e => ?_, fun E text e => ?_⟩
  · cases e with
    | invalidChecksum a b =>
      exact ⟨_, _, .tail _ (.head _), .head _, .cons ⟨rfl, .u16 a.toNat_lt⟩ (.cons ⟨rfl, .u16 b.toNat_lt⟩ .nil)⟩
    | invalidField p f =>
      exact ⟨_, _, .tail _ (.head _), .tail _ (.head _), .cons ⟨rfl, .str _⟩ (.cons ⟨rfl, .str _⟩ .nil)⟩
    | invalidPacketLen p a b =>
      exact ⟨_, _, .tail _ (.head _), .tail _ (.tail _ (.head _)),
        .cons ⟨rfl, .str _⟩ (.cons ⟨rfl, .usize _⟩ (.cons ⟨rfl, .usize _⟩ .nil))⟩
    | outOfMemory n =>
      exact ⟨_, _, .tail _ (.head _), .tail _ (.tail _ (.tail _ (.head _))), .cons ⟨rfl, .usize _⟩ .nil⟩
  · cases e with
    | invalidDate => exact ⟨_, _, .tail _ (.tail _ (.head _)), .head _, .nil⟩
    | invalidTime => exact ⟨_, _, .tail _ (.tail _ (.head _)), .tail _ (.head _), .nil⟩
    | invalidNanoseconds => exact ⟨_, _, .tail _ (.tail _ (.head _)), .tail _ (.tail _ (.head _)), .nil⟩
  · cases e with
    | notEnoughMem => exact ⟨_, _, .head _, .head _, .nil⟩
    | custom e => exact ⟨_, _, .head _, .tail _ (.head _), .cons ⟨rfl, .param _⟩ .nil⟩

/-- ... and there are no other variants: every value of these enumerations is one of them, up to the texts in it. -/
theorem c100_no_other {ds : List (Code.Name × List Msg.Variant)} (hd : IsDecls ds) {v : Msg.Val} (h : Declared ds v) :
    (∃ e, (parserErrorV e).owner = v.owner ∧ (parserErrorV e).variant = v.variant) ∨
    (∃ e, (dateTimeErrorV e).owner = v.owner ∧ (dateTimeErrorV e).variant = v.variant) ∨
    ∃ e : MemWriterError Unit, (memWriterErrorV (fun _ => "") e).owner = v.owner ∧
      (memWriterErrorV (fun _ => "") e).variant = v.variant := by
  rw [isDecls_iff] at hd
  subst hd
  obtain ⟨vs, ms, h1, h2, -⟩ := h
  simp only [Msg.decls, List.mem_cons, List.not_mem_nil, or_false, Prod.mk.injEq] at h1
  rcases h1 with ⟨ho, rfl⟩ | ⟨ho, rfl⟩ | ⟨ho, rfl⟩ <;>
    simp only [List.mem_cons, List.not_mem_nil, or_false, Prod.mk.injEq] at h2
  · rcases h2 with ⟨hv, -⟩ | ⟨hv, -⟩
    · exact .inr (.inr ⟨.notEnoughMem, ho.symm, hv.symm⟩)
    · exact .inr (.inr ⟨.custom (), ho.symm, hv.symm⟩)
  · rcases h2 with ⟨hv, -⟩ | ⟨hv, -⟩ | ⟨hv, -⟩ | ⟨hv, -⟩
    · exact .inl ⟨.invalidChecksum 0 0, ho.symm, hv.symm⟩
    · exact .inl ⟨.invalidField "" "", ho.symm, hv.symm⟩
    · exact .inl ⟨.invalidPacketLen "" 0 0, ho.symm, hv.symm⟩
    · exact .inl ⟨.outOfMemory 0, ho.symm, hv.symm⟩
  · rcases h2 with ⟨hv, -⟩ | ⟨hv, -⟩ | ⟨hv, -⟩
    · exact .inr (.inl ⟨.invalidDate, ho.symm, hv.symm⟩)
    · exact .inr (.inl ⟨.invalidTime, ho.symm, hv.symm⟩)
    · exact .inr (.inl ⟨.invalidNanoseconds, ho.symm, hv.symm⟩)

section

variable {arms : List Msg.Arm} (ha : IsErrors arms)
include ha

/-- **C100**: for every error of the parser the text is that of the model ... -/
theorem c100_parser (e : ParserError) : display arms (parserErrorV e) = some (codes e.display) := by
  rw [isErrors_iff] at ha
  subst ha
  cases e with
  | invalidChecksum a b =>
    exact (Msg.display_checksum a b).trans (congrArg some (Msg.codes_checksum a b).symm)
  | invalidField p f =>
    exact (Msg.display_field p f).trans (congrArg some (Msg.codes_field p f).symm)
  | invalidPacketLen p a b =>
    exact (Msg.display_len p a b).trans (congrArg some (Msg.codes_len p a b).symm)
  | outOfMemory n =>
    exact (Msg.display_memory n).trans (congrArg some (Msg.codes_memory n).symm)

/-- ... and so it names the kind of the error and contains its numbers and names. -/
theorem c100_message (e : ParserError) : ∃ text, display arms (parserErrorV e) = some (codes text) ∧ Message text e :=
  ⟨_, c100_parser ha e, c77_message e⟩

/-- **C100**: errors with the same text are the same. -/
theorem c100_injective {e e' : ParserError} (hn : Named e) (hn' : Named e')
    (h : display arms (parserErrorV e) = display arms (parserErrorV e')) : e = e' := by
  rw [c100_parser ha, c100_parser ha, Option.some.injEq] at h
  exact c77_injective hn hn' (codes_injective h)

/-- **C100**: the texts of the errors of the conversion to date and time -/
theorem c100_date (e : DateTimeError) :
    ∃ text, display arms (dateTimeErrorV e) = some (codes text) ∧ (e, text) ∈ dateMessages := by
  rw [isErrors_iff] at ha
  subst ha
  refine ⟨e.display, ?_, c77_date_text e⟩
  rw [Msg.display_date]
  cases e <;> simp only [DateTimeError.display, Msg.lit_date, Msg.lit_time, Msg.lit_nanos]

/-- **C100**: the texts of the errors of a writer, for any text of its own errors -/
theorem c100_mem {E : Type} (text : E → String) :
    display arms (memWriterErrorV text .notEnoughMem) = some (codes memMessage) ∧
    ∀ e, display arms (memWriterErrorV text (.custom e)) = some (codes (memPrefix ++ text e)) := by
  rw [isErrors_iff] at ha
  subst ha
  refine ⟨?_, fun e => ?_⟩
  · rw [Msg.display_mem, memMessage]
    simp only [Msg.lit_nomem]
  · rw [Msg.display_mem, memPrefix, Emit.codes_append]
    simp only [Msg.lit_memw, List.append_nil]

end

/-- The enumerations can be read. -/
example : ∃ ds, IsDecls ds ∧ Declared ds (parserErrorV (.outOfMemory 8)) :=
  ⟨_, isDecls_iff.mpr rfl, (c100_declared (isDecls_iff.mpr rfl)).1 _⟩

/-- The hypotheses are met, and the text of an error -/
example : ∃ arms, IsErrors arms ∧ Named (.invalidPacketLen "NavSat" 8 7) ∧
    display arms (parserErrorV (.invalidPacketLen "NavSat" 8 7)) =
      some (codes "Invalid packet(NavSat) length, expect 8, got 7") := by
  obtain ⟨arms, ha⟩ := c100_readable
  refine ⟨arms, ha, show Spec.Identifier _ by decide, ?_⟩
  rw [c100_parser ha]
  exact congrArg (fun s => some (codes s)) (by decide +kernel)

end Ublox.Props
