import Verif.Lemmas.WholeTable
import Verif.Lemmas.GenCode2
import Verif.Lemmas.GenMacro

/-!
# C94: what the functions do that the macros of `cfg_val.rs` make

`Macro.programOf` finds the functions and declarations in the text of `ublox/src/ubx_packets/cfg_val.rs` after its
macros are expanded, and `Exec.run` executes them, with those of the other files.
-/

set_option autoImplicit false

namespace Ublox.Props

open Spec Gen Exec
open Code (lift)
open Macro (rowOf)

/-- The program in the texts of the four files, with what the macros of `cfg_val.rs` make; nothing of `CfgVal`
is known to the evaluator by other means. -/
structure IsWhole (prog : Exec.Prog) : Prop where
  reads : ∃ base types cfg packets,
    Code.programOf (Src.codes (String.join metaRs)) = some base ∧
    Code.programOf (Src.codes (String.join typesRs)) = some types ∧
    Macro.programOf (Src.codes (String.join cfgFileRs)) = some cfg ∧
    Code.programOf (Src.codes (String.join packetsRs)) = some packets ∧
    prog.impls = base.1 ++ types.1 ++ cfg.1 ++ packets.1 ∧
    prog.decls = base.2 ++ types.2 ++ cfg.2 ++ packets.2
  enums : prog.enums = allEnums
  flags : prog.flags = allFlags
  items : prog.items = []

theorem isWhole_iff {prog : Exec.Prog} : IsWhole prog ↔ prog = whole (cfgItems.map rowOf) := by
  constructor
  · rintro ⟨⟨m, t, c, p, hm, ht, hc, hp, h1, h2⟩, h3, h4, h5⟩
    rw [metaRs_program] at hm
    rw [typesRs_program] at ht
    rw [cfgFileRs_program] at hc
    rw [packetsRs_program] at hp
    cases hm; cases ht; cases hc; cases hp
    cases prog
    simp only at h1 h2 h3 h4 h5
    subst h1 h2 h3 h4 h5
    rfl
  · rintro rfl
    exact ⟨⟨_, _, _, _, metaRs_program, typesRs_program, cfgFileRs_program, packetsRs_program, rfl, rfl⟩, rfl, rfl, rfl⟩

/-- **C94**: the texts can be read. -/
theorem c94_readable : ∃ prog, IsWhole prog := ⟨_, isWhole_iff.mpr rfl⟩

section

variable {prog : Exec.Prog} (hp : IsWhole prog) (m : Mach) {depth : Nat} (hd : 4 ≤ depth)

attribute [local irreducible] Exec.run Exec.change Code.lift Exec.runFn

include hp hd

/-- **C94**: the constants of the structure of an item, and `into_cfg_kv_bytes`: the key, then the value, each
with its lowest byte first (`cfg_val.rs:287-298`). -/
theorem c94_items {v : CfgVal} (hv : IsCfgVal cfgItems v) :
    run prog m depth [] (itemName v.item) i!"KEY" [] = .ok (wrapV i!"KeyId" (.u32 v.item.key), .unit) ∧
    (12 ≤ m.M → run prog m depth [] (itemName v.item) i!"SIZE" [] = .ok (.usize (cfgKv v).length, .unit)) ∧
    run prog m depth [] (itemName v.item) i!"into_cfg_kv_bytes" [cfgItemV v] = .ok (.bytes (cfgKv v), cfgItemV v) := by
  obtain ⟨k, rfl⟩ : ∃ k, depth = k + 4 := ⟨depth - 4, by omega⟩
  rw [isWhole_iff.mp hp]
  refine ⟨item_KEY cfgItems_fine m _ hv.1, fun hM => ?_, ?_⟩
  · have := item_SIZE cfgItems_fine m (k + 2) hM hv.1
    rw [this, ← CfgVal.len_eq hv]
    rfl
  · have := item_into cfgItems_fine m (k + 2) hv
    rw [this, CfgVal.intoCfgKvBytes_eq hv]
    simp only [returns, rust]

/-- **C94**: the functions of `CfgVal` (`cfg_val.rs:227-285`): lengths; `extend_to` appends key and value to a
buffer; `write_to` replaces the first bytes of a buffer that is long enough and panics for another.  Both return
the number of bytes. -/
theorem c94_values {v : CfgVal} (hv : IsCfgVal cfgItems v) :
    (12 ≤ m.M → run prog m depth [] i!"CfgVal" i!"len" [cfgValV v] = .ok (.usize (cfgKv v).length, cfgValV v)) ∧
    (12 ≤ m.M → run prog m depth [] i!"CfgVal" i!"is_empty" [cfgValV v] = .ok (.bool false, cfgValV v)) ∧
    (∀ buf, change prog m depth i!"CfgVal" i!"extend_to" [cfgValV v, .bytes buf] =
      .ok (.usize (cfgKv v).length, .bytes (buf ++ cfgKv v))) ∧
    (∀ buf, change prog m depth i!"CfgVal" i!"write_to" [cfgValV v, .bytes buf] =
      if (cfgKv v).length ≤ buf.length then
        .ok (.usize (cfgKv v).length, .bytes (cfgKv v ++ buf.drop (cfgKv v).length))
      else .error (.panic .slice)) := by
  obtain ⟨k, rfl⟩ : ∃ k, depth = k + 4 := ⟨depth - 4, by omega⟩
  rw [isWhole_iff.mp hp]
  refine ⟨fun hM => ?_, fun hM => ?_, fun buf => ?_, fun buf => ?_⟩
  · rw [item_len cfgItems_fine m (k + 1) hM hv, CfgVal.len_eq hv]
  · rw [item_isEmpty cfgItems_fine m k hM hv, CfgVal.isEmpty, CfgVal.len_eq hv, cfgKv_length]
    simp
  · rw [item_extend cfgItems_fine m (k + 1) hv, CfgVal.extendTo, CfgVal.intoCfgKvBytes_eq hv]
    simp only [rust, bind, Except.bind, pure, Except.pure]
  · rw [item_write cfgItems_fine m (k + 1) hv, CfgVal.writeTo, CfgVal.intoCfgKvBytes_eq hv]
    simp only [bind, Except.bind, pure, Except.pure]
    split <;> simp only [rust]

/-- **C94**: `parse` (`cfg_val.rs:243-253`) is that of the model: for the same bytes the same value or the same
panic. -/
theorem c94_parse (buf : Bytes) :
    run prog m depth [] i!"CfgVal" i!"parse" [.bytes buf] = returns (CfgVal.parse cfgItems buf) .unit cfgValV := by
  obtain ⟨k, rfl⟩ : ∃ k, depth = k + 4 := ⟨depth - 4, by omega⟩
  rw [isWhole_iff.mp hp]
  exact item_parse cfgItems_fine m (k + 3) buf

/-- **C94**: `parse` reads what `into_cfg_kv_bytes` writes, whatever follows, and all that it reads is written so. -/
theorem c94_round_trip :
    (∀ v rest, IsCfgVal cfgItems v →
      run prog m depth [] i!"CfgVal" i!"parse" [.bytes (cfgKv v ++ rest)] = .ok (cfgValV v, .unit)) ∧
    (∀ buf w u, run prog m depth [] i!"CfgVal" i!"parse" [.bytes buf] = .ok (w, u) →
      ∃ v rest, IsCfgVal cfgItems v ∧ w = cfgValV v ∧ buf = cfgKv v ++ rest) := by
  have hp' := fun buf => c94_parse hp m hd buf
  refine ⟨fun v rest hv => ?_, fun buf w u h => ?_⟩
  · rw [hp', CfgVal.parse_eq hv]
    simp only [returns, rust]
  · rw [hp'] at h
    cases e : CfgVal.parse cfgItems buf with
    | error p => rw [e] at h; simp [returns, rust] at h
    | ok v =>
      rw [e] at h
      simp only [returns, rust, Except.ok.injEq, Prod.mk.injEq] at h
      obtain ⟨hv, rest, hr⟩ := CfgVal.parse_sound e
      exact ⟨v, rest, hv, h.1.symm, hr.symm⟩

/-- **C94**: the iterator of `CfgValGet` and `CfgValSet` with these functions (`packets.rs:1787-1816`) -/
theorem c94_iter :
    (12 ≤ m.M → ∀ it : CfgValIter, run prog m depth [] i!"CfgValIter" i!"next" [cfgIterV it] =
      lift (it.next m.M cfgItems) fun r => .ok (optV (r.1.map cfgValV), cfgIterV r.2)) ∧
    (∀ (data : Bytes) (vs : List CfgVal), (∀ v ∈ vs, IsCfgVal cfgItems v) →
      run prog m depth [] i!"CfgValIter" i!"new" [.bytes data, .list (vs.map cfgValV)] =
        returns (CfgValIter.new m.M data vs) .unit cfgIterV) := by
  obtain ⟨k, rfl⟩ : ∃ k, depth = k + 4 := ⟨depth - 4, by omega⟩
  rw [isWhole_iff.mp hp]
  exact ⟨fun hM it => iter_next cfgItems_fine m k hM it, fun data vs hv => iter_new cfgItems_fine m k data vs hv⟩

end

/-! ## The hypotheses can be met -/

/-- Values of different types -/
def someValues : List CfgVal :=
  [⟨⟨"Uart1Baudrate", 0x40520001, .u32⟩, .u32 115200⟩, ⟨⟨"Uart1StopBits", 0x20520002, .stopBits⟩, .stopBits .half⟩,
    ⟨⟨"Uart1Enabled", 0x10520005, .bool⟩, .bool true⟩]

example : ∀ v ∈ someValues, IsCfgVal cfgItems v := by decide +kernel

example : ∃ prog, IsWhole prog ∧ run prog ⟨4294967295, fmt64, 0, 0⟩ 4 [] i!"CfgVal" i!"parse"
    [.bytes [1, 0, 0x52, 0x40, 0, 0xc2, 1, 0, 9]] =
      .ok (.adt [i!"CfgVal", i!"Uart1Baudrate"] [.u32 115200], .unit) := by
  obtain ⟨prog, hp⟩ := c94_readable
  refine ⟨prog, hp, ?_⟩
  have := (c94_round_trip hp ⟨4294967295, fmt64, 0, 0⟩ (depth := 4) (by decide)).1
    ⟨⟨"Uart1Baudrate", 0x40520001, .u32⟩, .u32 115200⟩ [9] (by decide +kernel)
  exact this

end Ublox.Props
