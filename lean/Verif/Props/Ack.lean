import Verif.Model.Ack
import Verif.Props.Iter
import Verif.Props.Build

/-!
# C45: acknowledgements and message rates

A packet type is its declaration; only its class and id matter.
-/

namespace Ublox.Props

open Spec Gen

theorem ack_getU8 {d : PackDesc} (hd : d = ackAck_ ∨ d = ackNak_) (a b : UInt8) :
    d.getU8 "class" [a, b] = .ok a ∧ d.getU8 "msg_id" [a, b] = .ok b := by
  rcases hd with rfl | rfl <;> exact ⟨rfl, rfl⟩

theorem ack_valid {d : PackDesc} (hd : d = ackAck_ ∨ d = ackNak_) (p : Bytes) :
    Valid d p ↔ ∃ a b, p = [a, b] := by
  have h : fallible d = [] ∧ (d.fields.any fun f => f.ty == .tail) = false ∧
      total d.fields = 2 ∧ d.fields.filterMap (·.sizeFn) = [] := by
    rcases hd with rfl | rfl <;> decide +kernel
  obtain ⟨h1, h2, h3, h4⟩ := h
  rw [valid_iff, h1]
  unfold LenOk required
  rw [h2, h3, h4]
  simp only [Bool.false_eq_true, if_false, List.map_nil, List.sum_nil, Nat.add_zero, ite_self,
    List.not_mem_nil, false_implies, implies_true, and_true]
  constructor
  · intro h
    match p, h with
    | [a, b], _ => exact ⟨a, b, rfl⟩
  · rintro ⟨a, b, rfl⟩; rfl

/-- Which frames are delivered as acknowledgements: exactly those with two payload bytes. -/
theorem c45_delivered (p : Bytes) :
    (matchPacket 0x05 0x01 p = .ok (.ok (.known ackAck_ p)) ↔ ∃ a b, p = [a, b]) ∧
    (matchPacket 0x05 0x00 p = .ok (.ok (.known ackNak_ p)) ↔ ∃ a b, p = [a, b]) :=
  ⟨(delivered_iff (by decide +kernel) p).trans (ack_valid (.inl rfl) p),
    (delivered_iff (by decide +kernel) p).trans (ack_valid (.inr rfl) p)⟩

/-- **C45** `is_ack_for::<T>` of a delivered ACK-ACK packet does not panic, and is true exactly if
the two payload bytes are the class and the id of `T`. -/
theorem c45_ack {cls id : UInt8} {payload p : Bytes}
    (h : matchPacket cls id payload = .ok (.ok (.known ackAck_ p))) (t : PackDesc) :
    ∃ r, isAckFor t p = .ok r ∧ (r = true ↔ p = [t.cls, t.id]) := by
  obtain ⟨-, hv⟩ := delivered h
  obtain ⟨a, b, rfl⟩ := (ack_valid (.inl rfl) p).mp hv
  obtain ⟨h1, h2⟩ := ack_getU8 (.inl rfl) a b
  unfold isAckFor
  rw [h1, Except.ok_bind, h2]
  split
  · rename_i ha
    exact ⟨_, rfl, by simp [ha]⟩
  · rename_i ha
    exact ⟨_, rfl, by simp [ha]⟩

/-- **C45** `is_nak_for::<T>` of a delivered ACK-NAK packet does not panic, and is true exactly if
the two payload bytes are the class and the id of `T`. -/
theorem c45_nak {cls id : UInt8} {payload p : Bytes}
    (h : matchPacket cls id payload = .ok (.ok (.known ackNak_ p))) (t : PackDesc) :
    ∃ r, isNakFor t p = .ok r ∧ (r = true ↔ p = [t.cls, t.id]) := by
  obtain ⟨-, hv⟩ := delivered h
  obtain ⟨a, b, rfl⟩ := (ack_valid (.inr rfl) p).mp hv
  obtain ⟨h1, h2⟩ := ack_getU8 (.inr rfl) a b
  unfold isNakFor
  rw [h1, Except.ok_bind, h2]
  split
  · rename_i ha
    exact ⟨_, rfl, by simp [ha]⟩
  · rename_i ha
    exact ⟨_, rfl, by simp [ha]⟩

example : matchPacket 5 1 [6, 8] = .ok (.ok (.known ackAck_ [6, 8])) ∧
    isAckFor cfgRate_ [6, 8] = .ok true ∧ isAckFor cfgRst_ [6, 8] = .ok false ∧
    matchPacket 5 0 [6, 8] = .ok (.ok (.known ackNak_ [6, 8])) ∧
    isNakFor cfgRate_ [6, 8] = .ok true ∧ isNakFor aidIni_ [6, 8] = .ok false := by decide +kernel

/-- **C45** One acknowledgement is not for two packet types that differ in class or id. -/
theorem c45_exclusive {cls id : UInt8} {payload p : Bytes} {t u : PackDesc}
    (hne : t.cls ≠ u.cls ∨ t.id ≠ u.id) :
    (matchPacket cls id payload = .ok (.ok (.known ackAck_ p)) →
      isAckFor t p = .ok true → isAckFor u p = .ok false) ∧
    (matchPacket cls id payload = .ok (.ok (.known ackNak_ p)) →
      isNakFor t p = .ok true → isNakFor u p = .ok false) := by
  have key : ∀ {r s : Bool}, (r = true ↔ p = [t.cls, t.id]) → (s = true ↔ p = [u.cls, u.id]) →
      r = true → s = false := by
    intro r s h1 h2 hr
    have := h1.mp hr
    subst this
    cases s with
    | false => rfl
    | true =>
      have h3 := h2.mp rfl
      simp only [List.cons.injEq, and_true] at h3
      rcases hne with h | h
      · exact absurd h3.1 h
      · exact absurd h3.2 h
  refine ⟨fun h ht => ?_, fun h ht => ?_⟩
  · obtain ⟨r, h1, h2⟩ := c45_ack h t
    obtain ⟨s, h3, h4⟩ := c45_ack h u
    rw [ht] at h1
    rw [h3, key h2 h4 (Except.ok.inj h1).symm]
  · obtain ⟨r, h1, h2⟩ := c45_nak h t
    obtain ⟨s, h3, h4⟩ := c45_nak h u
    rw [ht] at h1
    rw [h3, key h2 h4 (Except.ok.inj h1).symm]

example : cfgRate_.cls ≠ cfgRst_.cls ∨ cfgRate_.id ≠ cfgRst_.id := by decide +kernel

/-- **C45** `set_rate_for::<T>` gives the CFG-MSG frame with the class and the id of `T` and the
given rate or rates. -/
theorem c45_set_rate (t : PackDesc) (rate : UInt8) (rates : Bytes) (h6 : rates.length = 6) :
    cfgMsgSinglePort_.intoPacketBytes (setRateForSinglePort t rate) =
      .ok (frame 0x06 0x01 [t.cls, t.id, rate]) ∧
    cfgMsgAllPorts_.intoPacketBytes (setRateForAllPorts t rates) =
      .ok (frame 0x06 0x01 (t.cls :: t.id :: rates)) := by
  constructor
  · refine c18_any_declaration (d := cfgMsgSinglePort_) (by decide +kernel) (by decide +kernel)
      (by decide +kernel) (blocks := [[t.cls], [t.id], [rate]]) rfl rfl ?_
    intro i f v k hf hv hk
    match i, hf, hv, hk with
    | 0, hf, hv, hk => cases hf; cases hv; cases hk; exact ⟨rfl, rfl⟩
    | 1, hf, hv, hk => cases hf; cases hv; cases hk; exact ⟨rfl, rfl⟩
    | 2, hf, hv, hk => cases hf; cases hv; cases hk; exact ⟨rfl, rfl⟩
    | n + 3, hf, hv, hk => cases hv
  · have := c18_any_declaration (d := cfgMsgAllPorts_) (by decide +kernel) (by decide +kernel)
      (by decide +kernel) (b := setRateForAllPorts t rates) (blocks := [[t.cls], [t.id], rates])
      rfl rfl ?_
    · simp only [List.flatten_cons, List.flatten_nil, List.append_nil, List.cons_append, List.nil_append] at this
      exact this
    · intro i f v k hf hv hk
      match i, hf, hv, hk with
      | 0, hf, hv, hk => cases hf; cases hv; cases hk; exact ⟨rfl, rfl⟩
      | 1, hf, hv, hk => cases hf; cases hv; cases hk; exact ⟨rfl, rfl⟩
      | 2, hf, hv, hk =>
        cases hf; cases hv; cases hk
        refine ⟨?_, h6⟩
        simp [FieldDesc.bytes, RawVal.ofTy, h6, RawVal.toLeBytes, pure, Except.pure]
      | n + 3, hf, hv, hk => cases hv

example : cfgMsgSinglePort_.intoPacketBytes (setRateForSinglePort navPvt_ 1) =
    .ok [0xb5, 0x62, 0x06, 0x01, 3, 0, 0x01, 0x07, 0x01, 0x13, 0x51] := by decide +kernel

end Ublox.Props
