import Verif.Lemmas.Link
import Verif.Lemmas.Types
import Verif.Model.GenPackets
import Verif.Props.Types

/-!
# The program of the crate

The conversions of the crate, and its packets, form a program.
-/

namespace Ublox.Rust
open Spec Gen

/-- The conversions of the crate: the enumerations and flags made by the macros, and the types written by
hand. -/
def crateConvs : List Conv := allEnums.map .enum ++ allFlags.map .flags ++ handConvs

/-- For every packet and field, the position of its conversion among those of the crate (64: none). -/
def convIndex : List (List Nat) :=
  [[64, 44, 44, 44, 44, 44, 44],
   [64, 44, 44, 44, 44, 44, 44, 44, 44],
   [64, 64, 64, 44, 44, 44, 44, 44, 44, 44, 44, 44, 44],
   [64, 64, 64, 44, 44, 44, 44, 44, 44, 15, 44],
   [64, 64, 64, 64, 64, 64, 64, 64, 64, 64, 0, 16, 17, 64, 44, 44, 44, 44, 64, 64, 44, 44, 44, 44, 44,
    44, 44, 64, 64, 44, 44, 44],
   [64, 0, 18, 45, 1, 64, 64],
   [64, 43, 43, 43, 43, 43, 43, 43],
   [64],
   [64, 64, 64, 0, 18, 44, 44, 44, 44, 44, 44, 44, 44, 43, 64, 64, 64],
   [64, 64, 64, 64, 64, 64, 46],
   [64, 64, 64, 64, 58],
   [64, 64, 64, 64, 64, 64],
   [],
   [64, 64, 19, 2, 64, 64, 64, 64, 64, 64, 64],
   [51, 52],
   [64, 64, 20, 20, 20, 20, 20, 20],
   [55],
   [55],
   [55],
   [55],
   [55],
   [64, 64, 64, 64, 64, 64, 64, 64, 64, 64, 64, 64, 64],
   [64, 64, 64, 64, 64, 64, 64, 64, 64],
   [64, 64],
   [64, 64],
   [27, 53, 64],
   [21, 64],
   [4, 64, 64, 43, 43, 44, 44, 44, 44, 44, 25],
   [5, 64, 22, 44, 44, 44, 44, 64, 44],
   [64, 64, 64, 64, 64, 64, 64, 64, 64],
   [64, 64, 64, 64, 64, 64, 64, 64, 64, 64, 64, 23],
   [64, 64, 24, 26, 44, 44, 44, 43, 43, 43, 64, 44, 64, 44, 64],
   [64, 28, 64, 64],
   [6, 64, 64, 64, 64, 29, 30, 64, 64],
   [7, 64, 64, 50, 64, 29, 30, 64, 64],
   [8, 64, 64, 64, 64, 29, 30, 64, 64],
   [64, 64, 64, 64, 64, 64, 64, 64, 64, 31],
   [64, 64, 54],
   [64, 64, 64],
   [64, 64, 64],
   [32, 9, 10, 44, 44, 64, 64, 43, 43, 64, 64, 43, 64, 64, 64, 64, 64, 11, 64],
   [64, 33, 34, 64, 64, 64, 64, 64, 64, 64, 64, 64, 64, 64, 64, 64, 64, 64, 64, 64, 64, 64, 64],
   [64, 64, 12, 64, 64],
   [64, 64, 64, 64, 64, 64, 64, 64, 64, 64, 64, 64, 64, 64, 64, 64, 64, 64, 64, 64, 64, 64, 64],
   [64, 64, 64, 44, 44, 44, 44, 44, 44, 44, 44, 64],
   [64, 64, 64, 64, 64, 64, 64, 64, 64, 64, 64, 64, 64, 64, 64, 64, 64, 64, 64, 64, 64, 64, 64, 64, 64,
    64, 64, 64, 64, 64, 64],
   [64, 64, 64, 64, 47, 48],
   [64, 49, 64, 64, 64, 64, 64, 64, 64, 64],
   [64, 64, 64, 64, 35, 64, 64, 62],
   [64, 64, 64, 64, 64, 64, 13, 14, 64, 64, 64, 64, 64, 64, 64, 64, 64],
   [64, 36, 36, 36, 64, 64],
   [56, 56, 59],
   [64, 64, 64, 64, 64],
   [64, 64, 64, 60, 57],
   [64, 61],
   [37, 64, 64, 44, 44, 44, 44, 44, 44],
   [64, 64, 64, 44, 44, 44, 44, 44, 44],
   [38, 64, 64, 44, 44, 44, 44, 44, 44],
   [64, 64, 64, 64, 64, 64, 64, 40, 64, 0, 39, 64, 44, 44, 44, 44, 44, 44, 44, 44, 64, 64, 64, 44, 64],
   [64, 64, 64, 44, 44, 44, 44, 44, 44],
   [64, 64, 64, 64, 64],
   [64, 64, 64, 64, 64, 64, 64, 64, 63],
   [64, 64, 64, 64, 64],
   [64, 64, 64, 64, 64, 64, 64, 44, 64, 44, 64, 44, 44, 44, 44, 44, 44, 44, 44, 44, 44, 44, 44, 44, 44,
    44, 44, 44, 44, 44, 64],
   [64, 64, 64, 64, 64, 64, 64, 64, 64, 41, 41, 41, 42, 64],
   [64, 64, 64]]

theorem convIndex_eq : (allPackets.map fun d => d.fields.map (·.map)) =
    convIndex.map fun l => l.map fun i => crateConvs[i]? := by rfl

theorem crate_convs : ∀ d ∈ allPackets, ∀ f ∈ d.fields, ∀ c, f.map = some c → c ∈ crateConvs := by
  intro d hd f hf c hc
  have h1 : d.fields.map (·.map) ∈ allPackets.map fun d => d.fields.map (·.map) :=
    List.mem_map_of_mem (f := fun d : Ublox.PackDesc => d.fields.map (·.map)) hd
  rw [convIndex_eq] at h1
  obtain ⟨l, -, hl⟩ := List.mem_map.mp h1
  have h2 : f.map ∈ d.fields.map (·.map) := List.mem_map_of_mem (f := FieldDesc.map) hf
  rw [← hl] at h2
  obtain ⟨i, -, hi⟩ := List.mem_map.mp h2
  rw [hc] at hi
  exact List.mem_of_getElem? hi

theorem crate_program : ProgramOk crateConvs := by
  refine ⟨by decide +kernel, ?_, ?_⟩
  · intro e he
    have he' : e ∈ allEnums := by
      simp only [crateConvs, List.mem_append, List.mem_map] at he
      rcases he with (⟨e', h, he⟩ | ⟨d, _, hd⟩) | h
      · cases he; exact h
      · cases hd
      · revert h; simp [handConvs]
    refine ⟨?_, ?_⟩
    · have := (by decide +kernel : ∀ e ∈ allEnums, (generateEnumCode e).isOk = true) e he'
      cases h : generateEnumCode e with
      | ok c => exact ⟨c, rfl⟩
      | error s => rw [h] at this; cases this
    · obtain ⟨-, h2, h3⟩ := Props.enums_distinct e he'
      exact EnumDesc.nodup_names h2 h3
  · intro d hd
    have hd' : d ∈ allFlags := by
      simp only [crateConvs, List.mem_append, List.mem_map] at hd
      rcases hd with (⟨e', h, he⟩ | ⟨d, h, hd⟩) | h
      · cases he
      · cases hd; exact h
      · revert h; simp [handConvs]
    have := (by decide +kernel : ∀ d ∈ allFlags, (d.nbits = 8 ∨ d.nbits = 16 ∨ d.nbits = 32) ∧
      (generateFlagsCode d (if d.from_ then some .from else none) (some .reserved)).isOk = true) d hd'
    refine ⟨this.1, ?_⟩
    cases h : generateFlagsCode d (if d.from_ then some .from else none) (some .reserved) with
    | ok c => exact ⟨c, rfl⟩
    | error s => rw [h] at this; cases this.2

/-- Enumerations that are used with `may_fail` have `is_valid`. -/
def mayFailOk (f : FieldDesc) : Bool :=
  match f.map with
  | some (.enum e) => !f.mayFail || e.fromFn == some .fromUnchecked
  | _ => true

theorem crate_packets : ∀ d ∈ allPackets, PacketIn crateConvs d := by
  intro d hd
  refine ⟨crate_convs d hd, ?_⟩
  intro f hf e he hm
  have := (by decide +kernel : ∀ d ∈ allPackets, ∀ f ∈ d.fields, mayFailOk f = true) d hd f hf
  simpa [mayFailOk, he, hm] using this

end Ublox.Rust
