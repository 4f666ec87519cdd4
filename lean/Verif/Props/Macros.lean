import Verif.Lemmas.LibMacros
import Verif.Props.Generators2

/-!
# C98: the macros in the text of `lib.rs` emit the code of the model

`Lib.expand` executes a macro in the text of `ublox_derive/src/lib.rs` on a declaration, with the parsers of the model
and the generators in the text of `output.rs`: the tokens it returns, or `none` for `compile_error!`.
-/

set_option autoImplicit false

namespace Ublox.Props

open Emit
open Code (Tk)
open Lib (Decl Extras expand)
open Quote (packV enumV flagsV recvV emitted O)
open Syn (PackField StructDecl)

/-- The functions in the text of `lib.rs` -/
def IsLib (fs : List Meth.Fn) : Prop := Meth.fnsOf (Src.codes Gen.Meth.libRs) = some fs

theorem isLib_iff {fs : List Meth.Fn} : IsLib fs ↔ fs = Gen.Meth.libRs_fns := by
  rw [IsLib, Gen.Meth.libRs_fnsOf, Option.some.injEq, eq_comm]

/-- **C98**: the text can be read. -/
theorem c98_readable : ∃ fs, IsLib fs := ⟨_, isLib_iff.mpr rfl⟩

theorem generator_ok {out : List Quote.Fn} {n : Code.Name} {v : Quote.V} {ts : List Tk}
    (h : emitted out n [v] = .ok ts) : Lib.generator out n [.desc v] = .ok (.toks ts) := by
  rw [emitted] at h
  rw [Lib.generator]
  split at h
  · rename_i hr
    cases h
    rw [hr]
  · cases h
  · cases h

theorem generator_panic {out : List Quote.Fn} {n : Code.Name} {v : Quote.V}
    (h : emitted out n [v] = .error .panic) : Lib.generator out n [.desc v] = .error .panic := by
  rw [emitted] at h
  rw [Lib.generator]
  split at h
  · cases h
  · cases h
  · rename_i hr
    cases h
    rw [hr]

theorem generator_returned {out : List Quote.Fn} {n : Code.Name} {v : Quote.V} {r : Option (List Tk)}
    (h : returned out n [v] = .ok r) :
    Lib.generator out n [.desc v] = match r with
      | some ts => .ok (.ok (.toks ts))
      | none => .ok (.err .error) := by
  rw [returned] at h
  rw [Lib.generator]
  split at h
  · rename_i hr
    cases h
    rw [hr]
  · rename_i hr
    cases h
    rw [hr]
  · cases h
  · cases h

theorem generator_returned_panic {out : List Quote.Fn} {n : Code.Name} {v : Quote.V}
    (h : returned out n [v] = .error .panic) : Lib.generator out n [.desc v] = .error .panic := by
  rw [returned] at h
  rw [Lib.generator]
  split at h
  · cases h
  · cases h
  · cases h
  · rename_i hr
    cases h
    rw [hr]

/-- The macro for a kind of packet -/
def packetMacro : PackKind → Code.Name
  | .recv => i!"ubx_packet_recv"
  | .send => i!"ubx_packet_send"
  | .recvSend => i!"ubx_packet_recv_send"

/-- The code for a packet of this kind, if there is code for it: the constants, and the code for sending and for
receiving -/
def packetTokens (x : Extras) (k : PackKind) (d : Syn.PackDesc) : Except String (List Tk) :=
  match k with
  | .recv => (Rust.generateRecvCode d).map fun r => typesToks x.doc d ++ recvToks x.doc x.docs d r
  | .send => (Rust.generateSendCode d).map fun s => typesToks x.doc d ++ sendToks x.doc x.docs d s
  | .recvSend =>
    match Rust.generateSendCode d, Rust.generateRecvCode d with
    | .ok s, .ok r => .ok (typesToks x.doc d ++ sendToks x.doc x.docs d s ++ recvToks x.doc x.docs d r)
    | .error e, _ => .error e
    | _, .error e => .error e

section

variable {fs : List Meth.Fn} (hfs : IsLib fs) {out : List Quote.Fn} (hout : IsOutput out) (x : Extras)

include hfs hout

/-- **C98**: a packet.  If the declaration is wrong the macro gives a compile error; otherwise it emits the code of the
model for this kind of packet, or panics where the model has an error. -/
theorem c98_packet (k : PackKind) (s : StructDecl) :
    (∀ e, Syn.parsePacketDescription s = .error e → expand x out fs (packetMacro k) (.struct s) = .ok none) ∧
    (∀ d, Syn.parsePacketDescription s = .ok d → NamesOk d →
      expand x out fs (packetMacro k) (.struct s) =
        match packetTokens x k d with
        | .ok ts => .ok (some ts)
        | .error _ => .error .panic) := by
  rw [isLib_iff] at hfs
  subst hfs
  have kind (r : Except String Syn.PackDesc) (h : Syn.parsePacketDescription s = r) :
      Syn.parsePacketDescription ⟨.recv, s.name, s.attrs, s.fields⟩ = r := h
  constructor
  · intro e he
    cases k
    · exact Lib.expand_recv x out s (Lib.run_recv_err x out (kind _ he)) .err
    · exact Lib.expand_send x out s (Lib.run_send_err x out (kind _ he)) .err
    · exact Lib.expand_both x out s (Lib.run_both_err x out (kind _ he)) .err
  · intro d hd hn
    have ht := generator_ok (c95_types hout x.doc x.docs d)
    have hr := c95_recv hout x.doc x.docs d hn
    have hs := c96_send hout x.doc x.docs d hn
    cases k
    · cases hc : Rust.generateRecvCode d with
      | ok c =>
        rw [packetMacro, Lib.expand_recv x out s (Lib.run_recv_ok x out (kind _ hd) ht (generator_ok (hr.1 c hc).2)) (.toks _)]
        simp [packetTokens, hc, Lib.outcome, Except.map]
      | error e =>
        rw [packetMacro, Lib.expand_recv x out s (Lib.run_recv_panic_recv x out (kind _ hd) ht (generator_panic (hr.2 e hc))) (.panic _)]
        simp [packetTokens, hc, Lib.outcome, Except.map]
    · cases hc : Rust.generateSendCode d with
      | ok c =>
        rw [packetMacro, Lib.expand_send x out s (Lib.run_send_ok x out (kind _ hd) ht (generator_ok (hs.1 c hc))) (.toks _)]
        simp [packetTokens, hc, Lib.outcome, Except.map]
      | error e =>
        rw [packetMacro, Lib.expand_send x out s (Lib.run_send_panic_send x out (kind _ hd) ht (generator_panic (hs.2 e hc))) (.panic _)]
        simp [packetTokens, hc, Lib.outcome, Except.map]
    · cases hc : Rust.generateSendCode d with
      | error e =>
        rw [packetMacro, Lib.expand_both x out s (Lib.run_both_panic_send x out (kind _ hd) ht (generator_panic (hs.2 e hc))) (.panic _)]
        simp [packetTokens, hc, Lib.outcome]
      | ok c =>
        have hg := generator_ok (hs.1 c hc)
        cases hc' : Rust.generateRecvCode d with
        | error e =>
          rw [packetMacro, Lib.expand_both x out s
            (Lib.run_both_panic_recv x out (kind _ hd) ht hg (generator_panic (hr.2 e hc'))) (.panic _)]
          simp [packetTokens, hc, hc', Lib.outcome]
        | ok c' =>
          rw [packetMacro, Lib.expand_both x out s
            (Lib.run_both_ok x out (kind _ hd) ht hg (generator_ok (hr.1 c' hc').2)) (.toks _)]
          simp [packetTokens, hc, hc', Lib.outcome]

/-- **C98**: an enumeration -/
theorem c98_enum (s : Syn.EnumDecl) :
    (∀ e, Syn.parseUbxEnumType s = .error e →
      expand x out fs i!"ubx_extend" (.enum s) = if e = "not implemented" then .error .panic else .ok none) ∧
    (∀ d, Syn.parseUbxEnumType s = .ok d → EnumOk d →
      expand x out fs i!"ubx_extend" (.enum s) =
        match Rust.generateEnumCode d with
        | .ok code => .ok (some (enumToks x.attrs code))
        | .error _ => .error .panic) := by
  rw [isLib_iff] at hfs
  subst hfs
  constructor
  · intro e he
    have h := Lib.run_enum x out s he
    by_cases hn : e = "not implemented"
    · simp only [hn, if_true] at h ⊢
      exact Lib.expand_enum x out s h (.panic _)
    · simp only [hn, if_false] at h ⊢
      exact Lib.expand_enum x out s h .err
  · intro d hd hok
    have h := Lib.run_enum x out s hd
    have g := c96_enum hout x.attrs d hok
    cases hc : Rust.generateEnumCode d with
    | ok code =>
      simp only [generator_ok (g.1 code hc), Except.map] at h
      exact Lib.expand_enum x out s h (.toks _)
    | error e =>
      simp only [generator_panic (g.2 e hc), Except.map] at h
      exact Lib.expand_enum x out s h (.panic _)

/-- **C98**: flags -/
theorem c98_flags (s : Syn.FlagsDecl) :
    (∀ e, Syn.parseBitflags s = .error e → expand x out fs i!"ubx_extend_bitflags" (.macro true s) = .ok none) ∧
    (∀ d f r, Syn.parseBitflags s = .ok (d, f, r) → d.nbits ≤ 64 →
      expand x out fs i!"ubx_extend_bitflags" (.macro true s) =
        match Rust.generateFlagsCode d f r with
        | .ok code => .ok (some (flagsToks x.attrs x.vis x.constAttrs d code))
        | .error m => if m = "not implemented" then .error .panic else .ok none) := by
  rw [isLib_iff] at hfs
  subst hfs
  constructor
  · intro e he
    exact Lib.expand_flags x out true s (Lib.run_flags x out s he) .err
  · intro d f r hd hb
    have h := Lib.run_flags x out s hd
    have g := c96_flags hout x.attrs x.vis x.constAttrs d f r hb
    cases hc : Rust.generateFlagsCode d f r with
    | ok code =>
      simp only [generator_returned (g.1 code hc)] at h
      exact Lib.expand_flags x out true s h (.toks _)
    | error m =>
      have g := g.2 m hc
      by_cases hm : m = "not implemented"
      · simp only [hm, if_true] at g ⊢
        simp only [generator_returned_panic g] at h
        exact Lib.expand_flags x out true s h (.panic _)
      · simp only [hm, if_false] at g ⊢
        simp only [generator_returned g] at h
        exact Lib.expand_flags x out true s h .err

/-- **C98**: the list of packets -/
theorem c98_list (ts : List Syn.Tok) :
    (∀ e, Syn.parseIdentsList ts = .error e → expand x out fs i!"define_recv_packets" (.list ts) = .ok none) ∧
    (∀ r, Syn.parseIdentsList ts = .ok r → ListOk r →
      expand x out fs i!"define_recv_packets" (.list ts) = .ok (some (parseToks (Rust.generateParseCode r)))) := by
  rw [isLib_iff] at hfs
  subst hfs
  constructor
  · intro e he
    exact Lib.expand_list x out ts (Lib.run_list x out ts he) .err
  · intro r hr hok
    have h := Lib.run_list x out ts hr
    simp only [generator_ok (c96_list hout r hok), Except.map] at h
    exact Lib.expand_list x out ts h (.toks _)

omit hout in
/-- **C98**: on anything else the macros give a compile error: those for packets on what is not a struct, `ubx_extend`
on what is not an enumeration, `ubx_extend_bitflags` on another macro than `bitflags!` and on what is no macro. -/
theorem c98_wrong_item (d : Decl) :
    (∀ k, (∀ s, d ≠ .struct s) → (∀ ts, d ≠ .list ts) → expand x out fs (packetMacro k) d = .ok none) ∧
    ((∀ e, d ≠ .enum e) → (∀ ts, d ≠ .list ts) → expand x out fs i!"ubx_extend" d = .ok none) ∧
    ((∀ s, d ≠ .macro true s) → (∀ ts, d ≠ .list ts) → expand x out fs i!"ubx_extend_bitflags" d = .ok none) := by
  rw [isLib_iff] at hfs
  subst hfs
  refine ⟨fun k h l => ?_, fun h l => ?_, fun h l => ?_⟩
  · cases d with
    | struct s => exact absurd rfl (h s)
    | list ts => exact absurd rfl (l ts)
    | _ => cases k <;> rfl
  · cases d with
    | enum s => exact absurd rfl (h s)
    | list ts => exact absurd rfl (l ts)
    | _ => rfl
  · cases d with
    | «macro» b s =>
      cases b with
      | true => exact absurd rfl (h s)
      | false => exact Lib.expand_flags x out false s (Lib.run_flags_other x out s) .err
    | list ts => exact absurd rfl (l ts)
    | _ => rfl

/-- **C98**, for the declarations of the crate: the macro that stands before each of them emits code. -/
theorem c98_crate :
    (∀ s ∈ Gen.packetDecls, ∃ d ts, Syn.parsePacketDescription s = .ok d ∧ packetTokens x s.kind d = .ok ts ∧
      expand x out fs (packetMacro s.kind) (.struct s) = .ok (some ts)) ∧
    (∀ s ∈ Gen.enumDecls, ∃ e code, Syn.parseUbxEnumType s = .ok e ∧ Rust.generateEnumCode e = .ok code ∧
      expand x out fs i!"ubx_extend" (.enum s) = .ok (some (enumToks x.attrs code))) ∧
    (∀ s ∈ Gen.flagsDecls, ∃ d f r code, Syn.parseBitflags s = .ok (d, f, r) ∧ Rust.generateFlagsCode d f r = .ok code ∧
      expand x out fs i!"ubx_extend_bitflags" (.macro true s) =
        .ok (some (flagsToks x.attrs x.vis x.constAttrs d code))) ∧
    ∃ r, Syn.parseIdentsList Gen.recvDecl = .ok r ∧
      expand x out fs i!"define_recv_packets" (.list Gen.recvDecl) =
        .ok (some (parseToks (Rust.generateParseCode r))) := by
  refine ⟨fun s hs => ?_, fun s hs => ?_, fun s hs => ?_, ?_⟩
  · obtain ⟨d, hd, he⟩ := mem_zip_map c67_crate hs
    have hp : Syn.parsePacketDescription s = .ok (Spec.packetCode d) := congrArg Prod.snd he
    have hr : ∃ r, Rust.generateRecvCode (Spec.packetCode d) = .ok r := by
      obtain ⟨c, h, _⟩ := c95_crate hout x.doc x.docs d hd
      exact ⟨c, h⟩
    have hsend : s.kind ≠ .recv → ∃ c, Rust.generateSendCode (Spec.packetCode d) = .ok c := by
      intro hk
      obtain ⟨d', _, c, hp', _, hc, _⟩ := c73_crate (base := exBase) s hs hk
      rw [hp] at hp'
      rw [Except.ok.inj hp']
      exact ⟨c, hc⟩
    have h := (c98_packet hfs hout x s.kind s).2 _ hp (crate_names d hd)
    obtain ⟨r, hr⟩ := hr
    cases hk : s.kind with
    | recv =>
      rw [hk] at h
      simp only [packetTokens, hr, Except.map] at h ⊢
      exact ⟨_, _, hp, by simp only [hr], h⟩
    | send =>
      obtain ⟨c, hc⟩ := hsend (by simp [hk])
      rw [hk] at h
      simp only [packetTokens, hc, Except.map] at h ⊢
      exact ⟨_, _, hp, by simp only [hc], h⟩
    | recvSend =>
      obtain ⟨c, hc⟩ := hsend (by simp [hk])
      rw [hk] at h
      simp only [packetTokens, hc, hr] at h ⊢
      exact ⟨_, _, hp, by simp only [hc, hr], h⟩
  · obtain ⟨e, he, code, hp, hc, _⟩ := c74_crate_enums (base := exBase) s hs
    have h := (c98_enum hfs hout x s).2 e hp (crate_enums_ok e he)
    simp only [hc] at h
    exact ⟨e, code, hp, hc, h⟩
  · obtain ⟨d, hd, f, r, code, _, hp, hc, _⟩ := c74_crate_flags (base := exBase) s hs
    have h := (c98_flags hfs hout x s).2 d f r hp (crate_flags_ok d hd)
    simp only [hc] at h
    exact ⟨d, f, r, code, hp, hc, h⟩
  · obtain ⟨r, h, hr⟩ := crate_list_ok
    exact ⟨r, h, (c98_list hfs hout x _).2 r h hr⟩

end

/-! ## The hypotheses are met, and each outcome occurs -/

section

/-- Nothing before the declaration -/
def plain : Extras := ⟨[], fun _ => [], [], [], fun _ => []⟩

/-- A struct without the attribute `ubx` -/
def bare : StructDecl := ⟨.recv, "Bare", [], some []⟩

example : ∃ e, Syn.parsePacketDescription bare = .error e := ⟨_, rfl⟩

example {fs out} (hfs : IsLib fs) (hout : IsOutput out) :
    expand plain out fs i!"ubx_packet_recv" (.struct bare) = .ok none :=
  (c98_packet hfs hout plain .recv bare).1 _ rfl

example {fs out} (hfs : IsLib fs) : expand plain out fs i!"ubx_packet_recv_send" (.enum ⟨"E", [], []⟩) = .ok none :=
  (c98_wrong_item hfs plain (.enum ⟨"E", [], []⟩)).1 .recvSend (by simp) (by simp)

example : ∃ s ∈ Gen.packetDecls, s.kind = .recvSend := by decide +kernel

end

end Ublox.Props
