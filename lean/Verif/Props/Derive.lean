import Verif.Lemmas.Derive

/-!
# C55: declarations that the macros accept
-/

namespace Ublox.Props

open Spec Gen

/-- **C55**, partial: for every declaration that the macros accept (`parse`), that compiles, and in
which fields of announced size come last: whenever the generated `validate` accepts a payload, the
accessor of every field is the field's conversion applied to the bytes at the field's position in the
payload.  Missing: declarations with other fields after one of announced size, for which it is false
(`c55_wrong_position`, `c55_validate_panics`). -/
theorem c55_layout_partial {d : PackDesc} (hacc : d.parse = .ok d) (hc : Compiles d)
    (hord : Ordered d) {p : Bytes} (hv : d.validate p = .ok (.ok ())) {i : Nat} {f : FieldDesc}
    (hf : d.fields[i]? = some f) :
    ∃ pos bytes, Position d p i pos ∧ Region d p f pos bytes ∧
      (width f.ty ≠ 0 → ∃ r, r.ofTy f.ty = true ∧ Denotes r bytes ∧
        d.get f.getName p = f.convert r ∧ (f.map ≠ none → d.getRaw f.getName p = .ok r)) ∧
      (width f.ty = 0 → d.get f.getName p =
        match f.map with
        | some c => c.convert f.mayFail (.bytes bytes)
        | none => .ok (.raw (.bytes bytes))) := by
  obtain ⟨v, hv1, hv2⟩ := validate_length hacc hord hv
  obtain ⟨-, -, hfin⟩ := parse_inv hacc
  have hi := (List.getElem?_eq_some_iff.mp hf).1
  have hmem := List.mem_of_getElem? hf
  have hpos := position_of hord hv1 i (Nat.le_of_lt hi) fun j g hg hj hw => hfin j g hg (by omega) hw
  have hsum := sum_sizeFns_take hf v
  have hst := start_add_le_total hf
  have hfirst : (d.fields.take i).filterMap (·.sizeFn) =
      ((d.fields.take i).filter fun f => width f.ty == 0).filterMap (·.sizeFn) := by
    have : ∀ fs : List FieldDesc, (∀ f ∈ fs, width f.ty ≠ 0 → f.sizeFn = none) →
        fs.filterMap (·.sizeFn) = (fs.filter fun f => width f.ty == 0).filterMap (·.sizeFn) := by
      intro fs
      induction fs with
      | nil => simp
      | cons f fs ih =>
        intro h
        have ih := ih fun g hg => h g (by simp [hg])
        rw [List.filter_cons, List.filterMap_cons]
        by_cases hw : width f.ty = 0
        · rw [if_pos (by simpa using hw), List.filterMap_cons, ih]
        · rw [if_neg (by simpa using hw), h f (by simp) hw]
          exact ih
    exact this _ fun g hg => hord.1 g (List.mem_of_mem_take hg)
  have hg : d.getters[i]? = some ⟨f, start d.fields i,
      ((d.fields.take i).filter fun f => width f.ty == 0).filterMap (·.sizeFn)⟩ := by
    unfold PackDesc.getters
    rw [genGetters_getElem?, hf]
    simp
  rw [← hfirst] at hg
  have hget := Getter.run_eq_get hc.1 hg p
  have hget' : d.getRaw f.getName p =
      Getter.runRaw ⟨f, start d.fields i, (d.fields.take i).filterMap (·.sizeFn)⟩ p := by
    unfold PackDesc.getRaw
    have := find_getter hc.1 hg
    simp only at this
    rw [this]
  simp only at hget
  by_cases hw : width f.ty = 0
  · cases hs : f.sizeFn with
    | none =>
      -- the last field
      have hz : (d.fields.take i).filterMap (·.sizeFn) = [] := by
        rw [List.filterMap_eq_nil_iff]
        intro g hg
        obtain ⟨j, hj⟩ := List.mem_iff_getElem?.mp hg
        rw [List.getElem?_take] at hj
        split at hj
        · rename_i hji
          apply hord.1 g (List.mem_of_getElem? hj)
          intro h0
          exact (hord.2 j i g f hji hj hf h0).2 hs
        · cases hj
      rw [hz] at hpos hg hget
      simp only [List.map_nil, List.sum_nil, Nat.add_zero] at hpos
      refine ⟨_, p.drop (start d.fields i), hpos, .inr ⟨hw, hs, by omega, rfl⟩,
        fun h => absurd hw h, fun _ => ?_⟩
      rw [← hget]
      unfold Getter.run Getter.tailBytes
      simp only [size_none hw, hs, sliceFrom_ok (show start d.fields i ≤ p.length by omega),
        Except.ok_bind]
      rfl
    | some s =>
      have hrun := hv1 s (List.mem_filterMap.mpr ⟨_, hmem, hs⟩)
      rw [hs] at hsum
      simp only [Option.toList_some, List.map_cons, List.map_nil, List.sum_cons, List.sum_nil,
        Nat.add_zero] at hsum
      refine ⟨_, _, hpos, .inl ⟨v s, .announced hw hs hrun, by omega, rfl⟩,
        fun h => absurd hw h, fun _ => ?_⟩
      rw [← hget]
      unfold Getter.run Getter.tailBytes
      have hsub : ∀ s ∈ (d.fields.take i).filterMap (·.sizeFn), s.run d p = .ok (v s) := by
        intro t ht
        obtain ⟨g, hg, hgt⟩ := List.mem_filterMap.mp ht
        exact hv1 t (List.mem_filterMap.mpr ⟨g, List.mem_of_mem_take hg, hgt⟩)
      simp only [size_none hw, hs, sumSizeFns_of hsub, hrun, Except.ok_bind]
      rw [sliceRange_ok (by omega) (by omega), Except.ok_bind, Nat.add_sub_cancel_left]
      rfl
  · -- fixed size: everything before is fixed as well
    have hz : (d.fields.take i).filterMap (·.sizeFn) = [] := by
      rw [List.filterMap_eq_nil_iff]
      intro g hg
      obtain ⟨j, hj⟩ := List.mem_iff_getElem?.mp hg
      rw [List.getElem?_take] at hj
      split at hj
      · rename_i hji
        apply hord.1 g (List.mem_of_getElem? hj)
        intro h0
        exact hw (hord.2 j i g f hji hj hf h0).1
      · cases hj
    rw [hz] at hpos hg hget hget'
    simp only [List.map_nil, List.sum_nil, Nat.add_zero] at hpos
    obtain ⟨r, r1, r2, r3⟩ := getRawField_ok (f := f) (off := start d.fields i) (data := p) hw (by omega)
      (fun h => hc.2 f hmem h hw)
    refine ⟨_, _, hpos, .inl ⟨_, .fixed hw, by omega, rfl⟩, fun _ => ⟨r, r2, r3, ?_, ?_⟩,
      fun h => absurd h hw⟩
    · rw [← hget]
      unfold Getter.run Getter.runSized
      simp only [size_some hw, r1, Except.ok_bind]
    · intro hm
      rw [hget']
      unfold Getter.runRaw
      rw [if_pos (by simpa [Option.isSome_iff_ne_none] using hm)]
      exact r1

/-- ESF-MEAS has two fields of announced size and meets the hypotheses. -/
example : esfMeas_.parse = .ok esfMeas_ ∧ (esfMeas_.fields.map FieldDesc.getName).Nodup ∧
    esfMeas_.validate [1, 0, 0, 0, 0x08, 0x08, 0, 0, 1, 2, 3, 4, 5, 6, 7, 8] = .ok (.ok ()) := by
  decide +kernel

/-- **C55**, which declarations are accepted: the length is a number of 16 bits; no float is mapped to
itself; every field but the last has a fixed size or a size function; and a fixed length is given
exactly if all fields have a fixed size, and is then their sum. -/
theorem c55_accepted (d d' : PackDesc) : d.parse = .ok d' ↔
    d' = d ∧ d.maxPayloadLen < 2 ^ 16 ∧
    (∀ f ∈ d.fields, ¬ (f.map = some .f32 ∧ f.ty = .f32) ∧ ¬ (f.map = some .f64 ∧ f.ty = .f64)) ∧
    (∀ (i : Nat) (f : FieldDesc), d.fields[i]? = some f → i + 1 < d.fields.length →
      width f.ty = 0 → f.sizeFn ≠ none) ∧
    ((∃ n, d.payloadLen = .fixed n ∧ (∀ f ∈ d.fields, width f.ty ≠ 0) ∧ n = total d.fields) ∨
      (∃ n, d.payloadLen = .max n ∧ ∃ f ∈ d.fields, width f.ty = 0)) := by
  have hsame : ∀ f : FieldDesc, f.mapsToSame = true ↔
      (f.map = some .f32 ∧ f.ty = .f32) ∨ (f.map = some .f64 ∧ f.ty = .f64) := by
    intro f
    unfold FieldDesc.mapsToSame
    split <;> simp_all
  have hsize : d.fixedPayloadLen = d.packetPayloadSize ↔
      ((∃ n, d.payloadLen = .fixed n ∧ (∀ f ∈ d.fields, width f.ty ≠ 0) ∧ n = total d.fields) ∨
        (∃ n, d.payloadLen = .max n ∧ ∃ f ∈ d.fields, width f.ty = 0)) := by
    unfold PackDesc.fixedPayloadLen PackDesc.packetPayloadSize
    rw [fieldsSize_eq]
    cases d.payloadLen <;> by_cases hany : d.fields.any (fun f => width f.ty == 0) = true <;>
      simp_all
    obtain ⟨f, hf, hw⟩ := hany
    exact fun h => absurd hw (h f hf)
  constructor
  · intro h
    obtain ⟨rfl, h2, h3⟩ := parse_inv h
    refine ⟨rfl, ?_, ?_, h3, hsize.mp h2⟩
    · unfold PackDesc.parse at h
      split at h
      · cases h
      · omega
    · unfold PackDesc.parse at h
      split at h
      · cases h
      split at h
      · cases h
      · rename_i hfind
        intro f hf
        have := List.find?_eq_none.mp hfind f hf
        rw [hsame] at this
        exact ⟨fun h => this (.inl h), fun h => this (.inr h)⟩
  · rintro ⟨rfl, h1, h2, h3, h4⟩
    unfold PackDesc.parse
    rw [if_neg (by omega)]
    have a : d'.fields.find? (·.mapsToSame) = none := by
      rw [List.find?_eq_none]
      intro f hf hs
      rcases (hsame f).mp hs with h | h
      · exact (h2 f hf).1 h
      · exact (h2 f hf).2 h
    have b : (d'.fields.reverse.drop 1).find? (fun f => f.ty.size.isNone && f.sizeFn.isNone) =
        none := by
      rw [List.find?_eq_none]
      intro f hf hs
      rw [List.drop_one, List.tail_reverse, List.mem_reverse, List.mem_iff_getElem?] at hf
      obtain ⟨i, hi⟩ := hf
      rw [List.getElem?_dropLast] at hi
      split at hi
      · rename_i hlt
        simp only [Bool.and_eq_true, Option.isNone_iff_eq_none, size_eq] at hs
        refine h3 i f hi (by omega) ?_ hs.2
        have := hs.1
        split at this
        · assumption
        · cases this
      · cases hi
    simp only [a, b]
    rw [if_pos (hsize.mpr h4)]

/-- Every declaration of the crate is accepted, compiles in the sense above and is ordered. -/
theorem c55_crate (d : PackDesc) (hd : d ∈ allPackets) :
    d.parse = .ok d ∧ Compiles d ∧ Ordered d := by
  have a : ∀ d ∈ allPackets, d.parse = .ok d := by decide +kernel
  have b : ∀ d ∈ allPackets, (d.fields.map FieldDesc.getName).Nodup := by decide +kernel
  have c : ∀ d ∈ allPackets, ∀ f ∈ d.fields, f.getAsRef = true → width f.ty ≠ 0 →
      (match f.ty with | .bytes _ => true | _ => false) = true := by decide +kernel
  have e : ∀ d ∈ allPackets, ∀ f ∈ d.fields, width f.ty ≠ 0 → f.sizeFn = none := by decide +kernel
  have g : ∀ d ∈ allPackets, ∀ x ∈ d.fields.zipIdx, ∀ y ∈ d.fields.zipIdx, x.2 < y.2 →
      width x.1.ty = 0 → width y.1.ty = 0 ∧ y.1.sizeFn.isSome = true := by decide +kernel
  replace a := a d hd
  replace b := b d hd
  replace c := c d hd
  replace e := e d hd
  replace g := g d hd
  refine ⟨a, ⟨b, fun f hf hr hw => ?_⟩, e, fun i j f k hij hf hk hw => ?_⟩
  · have := c f hf hr hw
    revert this
    cases f.ty <;> simp
  · have := g (f, i) (List.mem_zipIdx_iff_getElem?.mpr hf) (k, j)
      (List.mem_zipIdx_iff_getElem?.mpr hk) hij hw
    exact ⟨this.1, fun h => by rw [h] at this; exact absurd this.2 (by decide)⟩

/-- A declaration with a 16-bit number after a field of announced size. -/
def trailingField : PackDesc :=
  { name := "Trailing", kind := .recv, cls := 1, id := 1, payloadLen := .max 100, defaultForBuilder := false,
    fields := [
      { name := "head", ty := .u32 },
      { name := "flags", ty := .u16 },
      { name := "data", ty := .tail, map := some .calibTag, sizeFn := some .dataLen },
      { name := "extra", ty := .u16 }] }

def trailingPayload : Bytes := [0, 0, 0, 0, 0x00, 0x08, 1, 2, 3, 4, 5, 6]

/-- **C55**, violated: the macros accept the declaration, the payload is valid and has four bytes of
`data` from 6 to 10, and the accessor of `extra`, which is at 10, reads the bytes at 6. -/
theorem c55_wrong_position :
    trailingField.parse = .ok trailingField ∧ Compiles trailingField ∧
    trailingField.validate trailingPayload = .ok (.ok ()) ∧
    Position trailingField trailingPayload 3 10 ∧
    trailingField.get "extra" trailingPayload = .ok (.raw (.u16 0x0201)) ∧
    ¬ Denotes (.u16 0x0201) ((trailingPayload.drop 10).take 2) := by
  refine ⟨by decide +kernel, ⟨by decide +kernel, ?_⟩, by decide +kernel, ?_, by decide +kernel, ?_⟩
  · intro f hf hr
    have : ∀ f ∈ trailingField.fields, f.getAsRef = false := by decide +kernel
    rw [this f hf] at hr
    cases hr
  · have h1 : Position trailingField trailingPayload 1 4 :=
      Position.succ .zero (f := { name := "head", ty := .u32 }) rfl (.fixed (by decide))
    have h2 : Position trailingField trailingPayload 2 6 :=
      Position.succ h1 (f := { name := "flags", ty := .u16 }) rfl (.fixed (by decide))
    exact Position.succ h2 (n := 4) (f := { name := "data", ty := .tail, map := some .calibTag, sizeFn := some .dataLen })
      rfl (.announced (s := .dataLen) rfl rfl (by decide +kernel))
  · unfold Denotes; decide

/-- A declaration with a field of unlimited size after one of announced size. -/
def openEnd : PackDesc :=
  { name := "OpenEnd", kind := .recv, cls := 1, id := 1, payloadLen := .max 100, defaultForBuilder := false,
    fields := [
      { name := "head", ty := .u32 },
      { name := "flags", ty := .u16 },
      { name := "data", ty := .tail, map := some .calibTag, sizeFn := some .dataLen },
      { name := "rest", ty := .tail }] }

/-- **C55**, violated: for this declaration, which the macros accept, `validate` itself panics on
every payload with fewer than six bytes, and `rest` overlaps with `data`. -/
theorem c55_validate_panics :
    openEnd.parse = .ok openEnd ∧
    (∀ p : Bytes, p.length < 6 → ∃ e, openEnd.validate p = .error e) ∧
    openEnd.get "rest" [0, 0, 0, 0, 0x00, 0x08, 1, 2, 3, 4, 5, 6] =
      .ok (.raw (.bytes [1, 2, 3, 4, 5, 6])) := by
  refine ⟨by decide +kernel, ?_, by decide +kernel⟩
  intro p hp
  have hflags : ∃ e, flagsOf openEnd p = .error e := by
    have hg : (openEnd.getters.find? fun g => g.field.getName == "flags") =
        some ⟨{ name := "flags", ty := .u16 }, 4, []⟩ := by decide +kernel
    unfold flagsOf
    rw [hg]
    simp only [Getter.runSized, getRawField, RawTy.size]
    have hr : ∃ e, readBytes p 4 2 = .error e := by
      unfold readBytes
      unfold getByte
      by_cases h4 : 4 < p.length
      · have : p.length = 5 := by omega
        match p, this with
        | [a, b, c, d, e], _ => exact ⟨_, rfl⟩
      · rw [List.getElem?_eq_none (by omega)]
        exact ⟨_, rfl⟩
    obtain ⟨e, he⟩ := hr
    exact ⟨e, by simp [he]; rfl⟩
  obtain ⟨e, he⟩ := hflags
  refine ⟨e, ?_⟩
  have h1 : openEnd.packetPayloadSize = none := by decide +kernel
  have h2 : openEnd.fields.filterMap (·.sizeFn) = [.dataLen] := by decide +kernel
  have h3 : openEnd.sizeExceptSizeFn = none := by decide +kernel
  unfold PackDesc.validate
  simp only [h1, h2, h3]
  simp only [List.isEmpty_cons, Bool.false_eq_true, if_false, Option.getD_none, Nat.not_lt_zero]
  unfold sumSizeFns SizeFn.run
  rw [he]
  rfl

end Ublox.Props
