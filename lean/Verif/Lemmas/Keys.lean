import Verif.Spec.Keys
import Verif.Lemmas.CfgVal

/-! Helper lemmas: the table of configuration items of the crate against that of the description. -/

namespace Ublox
open Spec

/-- The value type of the crate's row fits the type of the description's item. -/
def tyFits : CfgTy → ItemTy → Bool
  | .bool, .L => true
  | .u8, .U1 => true
  | .u16, .U2 => true
  | .i16, .I2 => true
  | .u32, .U4 => true
  | .u64, .X8 => true
  | .cfgInfMask, .X1 => true
  | .dataBits, t => t = databits
  | .parity, t => t = Spec.parity
  | .stopBits, t => t = stopbits
  | .alignment, t => t = timeref
  | .tpPulse, t => t = pulseDef
  | .tpPulseLength, t => t = pulseLengthDef
  | _, _ => false

set_option maxRecDepth 4000 in
theorem keys_length : Gen.cfgItems.length = descItems.length := by decide +kernel

set_option maxRecDepth 4000 in
theorem keys_rows : ∀ p ∈ Gen.cfgItems.zip descItems,
    Spells p.1.name p.2.name ∧ p.1.key.toNat = p.2.key ∧ tyFits p.1.ty p.2.ty = true := by
  decide +kernel

/-- A name as a number, to compare names quickly. -/
def nameCode (ps : List String) : Nat :=
  (ps.flatMap letters).foldl (fun n c => n * 256 + c.toNat) 1

set_option maxRecDepth 4000 in
theorem names_nodupB : nodupB (descItems.map fun d => nameCode d.name) = true := by decide +kernel

theorem inj_of_nodup_map {α β : Type} (f : α → β) {l : List α} (hn : (l.map f).Nodup) {a b : α}
    (ha : a ∈ l) (hb : b ∈ l) (h : f a = f b) : a = b := by
  induction l with
  | nil => simp at ha
  | cons x l ih =>
    rw [List.map_cons, List.nodup_cons] at hn
    rcases List.mem_cons.mp ha with rfl | ha' <;> rcases List.mem_cons.mp hb with rfl | hb'
    · rfl
    · exact absurd (List.mem_map.mpr ⟨b, hb', h.symm⟩) hn.1
    · exact absurd (List.mem_map.mpr ⟨a, ha', h⟩) hn.1
    · exact ih hn.2 ha' hb'

theorem Item.eq_of_letters {d d' : Item} (hd : d ∈ descItems) (hd' : d' ∈ descItems)
    (h : d.name.flatMap letters = d'.name.flatMap letters) : d = d' := by
  have hn := nodup_of_nodupB names_nodupB
  exact inj_of_nodup_map _ hn hd hd' (by simp only [nameCode, h])

theorem zip_fst_mem {α β : Type} {l : List α} {m : List β} (hl : l.length = m.length) {a : α}
    (ha : a ∈ l) : ∃ b, (a, b) ∈ l.zip m ∧ b ∈ m := by
  obtain ⟨i, hi, rfl⟩ := List.mem_iff_getElem.mp ha
  refine ⟨m[i], ?_, List.getElem_mem _⟩
  have h : i < (l.zip m).length := by simp only [List.length_zip]; omega
  have := List.getElem_mem h
  rwa [List.getElem_zip] at this

theorem zip_snd_mem {α β : Type} {l : List α} {m : List β} (hl : l.length = m.length) {b : β}
    (hb : b ∈ m) : ∃ a, (a, b) ∈ l.zip m ∧ a ∈ l := by
  obtain ⟨i, hi, rfl⟩ := List.mem_iff_getElem.mp hb
  refine ⟨l[i], ?_, List.getElem_mem _⟩
  have h : i < (l.zip m).length := by simp only [List.length_zip]; omega
  have := List.getElem_mem h
  rwa [List.getElem_zip] at this

theorem natLe_one (b : UInt8) : natLe 1 b.toNat = [b] := by
  simp [natLe]

theorem tyFits_bytes {v : CfgValue} {t : ItemTy} (h : tyFits v.ty t = true) :
    itemBytes t v = some (natLe (cfgWidth v.ty) (cfgNat v)) := by
  cases v <;> cases t <;>
    simp only [CfgValue.ty, tyFits, decide_eq_true_eq, databits, Spec.parity, stopbits, timeref,
      pulseDef, pulseLengthDef, reduceCtorEq, Bool.false_eq_true, ItemTy.E1.injEq] at h <;>
    simp only [itemBytes, cfgWidth, CfgValue.ty, cfgNat]
  case bool.L b => cases b <;> rfl
  case u8.U1 b => rw [natLe_one]
  case cfgInfMask.X1 b => rw [natLe_one]
  case i16.I2 => rfl
  all_goals subst h; rename_i v; cases v <;> rfl

theorem itemBytes_ty {v : CfgValue} {ty : CfgTy} {t : ItemTy} {enc : Bytes} (h : tyFits ty t = true)
    (he : itemBytes t v = some enc) : v.ty = ty := by
  cases ty <;> cases t <;>
    simp only [tyFits, decide_eq_true_eq, databits, Spec.parity, stopbits, timeref,
      pulseDef, pulseLengthDef, reduceCtorEq, Bool.false_eq_true, ItemTy.E1.injEq] at h
  case bool.L | u8.U1 | u16.U2 | i16.I2 | u32.U4 | u64.X8 | cfgInfMask.X1 =>
    cases v <;> simp [itemBytes] at he <;> rfl
  all_goals
    subst h
    cases v <;> first | rfl | (rename_i w; first | (simp [itemBytes, constantName] at he; done) | (cases w <;> simp [itemBytes, constantName, List.lookup] at he))

end Ublox
