import Verif.Lemmas.Dispatch

/-! # Which payloads are delivered as which packet -/

namespace Ublox
open Spec

theorem matchPacketIn_filter (cls id : UInt8) (payload : Bytes) (ds : List PackDesc) :
    matchPacketIn cls id payload ds =
      matchPacketIn cls id payload (ds.filter fun d => decide (cls = d.cls ∧ id = d.id)) := by
  induction ds with
  | nil => rfl
  | cons d ds ih =>
    by_cases h : cls = d.cls ∧ id = d.id
    · rw [List.filter_cons_of_pos (by simpa using h)]
      unfold matchPacketIn
      rw [if_pos h, if_pos h, ih]
    · rw [List.filter_cons_of_neg (by simpa using h), ← ih]
      conv => lhs; unfold matchPacketIn
      rw [if_neg h]

/-- The fields with a validator, with their positions. -/
def fallible (d : PackDesc) : List (FieldDesc × Nat) := d.fields.zipIdx.filter fun x => x.1.mayFail

theorem valid_iff {d : PackDesc} {payload : Bytes} :
    Valid d payload ↔ LenOk d payload ∧
      ∀ x ∈ fallible d, FieldValid x.1 (fieldBytes d.fields x.2 x.1 payload) := by
  unfold Valid fallible
  refine and_congr_right fun _ => ?_
  constructor
  · intro h x hx
    obtain ⟨hx, -⟩ := List.mem_filter.mp hx
    exact h x.2 x.1 (List.mem_zipIdx_iff_getElem?.mp hx)
  · intro h i f hf
    by_cases hm : f.mayFail = true
    · exact h (f, i) (List.mem_filter.mpr ⟨List.mem_zipIdx_iff_getElem?.mpr hf, hm⟩)
    · intro hc; exact absurd hc hm

/-- Validity when the only fallible field is a closed enumeration in the first byte. -/
theorem valid_first_enum {d : PackDesc} {f : FieldDesc} {e : EnumDesc} (n : Nat)
    (hfall : fallible d = [(f, 0)]) (hm : f.map = some (.enum e)) (hty : f.ty = .u8)
    (ht : d.fields.any (fun f => f.ty == .tail) = false) (hn : total d.fields = n)
    (hs : d.fields.filterMap (·.sizeFn) = [])
    {b : UInt8} {rest : Bytes} (hl : (b :: rest).length = n) :
    Valid d (b :: rest) ↔ b ∈ e.variants.map (·.2) := by
  rw [valid_iff, hfall]
  have hlen : LenOk d (b :: rest) := by
    unfold LenOk required
    rw [ht, hs]
    simp only [List.map_nil, List.sum_nil, Nat.add_zero, ite_self]
    simp [hn, hl]
  have hmf : f.mayFail = true := by
    have : (f, 0) ∈ fallible d := by rw [hfall]; simp
    exact (List.mem_filter.mp this).2
  simp only [hlen, true_and, List.mem_singleton, forall_eq]
  unfold FieldValid fieldBytes
  rw [if_neg (by rw [hty]; simp), hty, start_zero]
  simp only [hmf, true_implies, hm, List.drop_zero, width, List.take_succ_cons, List.take_zero]
  constructor
  · rintro ⟨b', hb', h⟩
    simp only [List.cons.injEq, and_true] at hb'
    rw [hb']; exact h
  · exact fun h => ⟨b, rfl, h⟩

theorem matchPacketIn_cons {cls id : UInt8} {payload : Bytes} {d : PackDesc} {ds : List PackDesc}
    (hwf : d.wf = true) (h1 : cls = d.cls) (h2 : id = d.id) :
    (Valid d payload → matchPacketIn cls id payload (d :: ds) = .ok (.ok (.known d payload))) ∧
    (¬ Valid d payload →
      matchPacketIn cls id payload (d :: ds) = matchPacketIn cls id payload ds) := by
  constructor
  · intro hv
    unfold matchPacketIn
    rw [if_pos ⟨h1, h2⟩, (validate_ok_iff hwf payload).mpr hv]
    rfl
  · intro hv
    conv => lhs; unfold matchPacketIn
    obtain ⟨r, hr⟩ := validate_total hwf payload
    rw [if_pos ⟨h1, h2⟩, hr]
    cases r with
    | error e => rfl
    | ok u => exact absurd ((validate_ok_iff hwf payload).mp hr) hv

theorem recv_cfgPrt : (Gen.recvPackets.filter fun d =>
    decide ((6 : UInt8) = d.cls ∧ (0 : UInt8) = d.id)) =
      [Gen.cfgPrtI2c_, Gen.cfgPrtSpi_, Gen.cfgPrtUart_] := by decide +kernel

/-- Which packet declarations have a field that is converted to `UartMode`. -/
theorem uartMode_fields : ∀ d ∈ Gen.allPackets, ∀ f ∈ d.fields, f.map = some .uartMode →
    d = Gen.cfgPrtUart_ ∧ f.getName = "mode" := by decide +kernel

theorem serialize_names : ∀ d ∈ Gen.allPackets, d.name ≠ "AckAck" → d.name ≠ "AckNak" →
    d.name ≠ "MgaAck" → d.kind ≠ .send →
    ("class" :: "msg_id" :: d.fields.map FieldDesc.name).Nodup := by decide +kernel

/-- A smallest payload: all bytes are zero, except that closed enumerations have their first
code. -/
def smallest (d : PackDesc) : Bytes :=
  d.fields.flatMap fun f =>
    match f.map, f.mayFail with
    | some (.enum e), true => (e.variants.map (·.2)).take 1
    | _, _ => List.replicate (width f.ty) 0

theorem smallest_delivered : ∀ d ∈ Gen.recvPackets, d.name ≠ "MgaGpsEPH" →
    matchPacket d.cls d.id (smallest d) = .ok (.ok (.known d (smallest d))) ∧
      (smallest d).length ≤ 8176 := by decide +kernel

end Ublox
