import Verif.Lemmas.BuildBack

/-! # When building succeeds -/

namespace Ublox
open Spec Gen Props

/-- A NaN in a signed field panics. -/
theorem signedNan_bytes {d : PackDesc} {f : FieldDesc} {v : Val} (hd : d ∈ allPackets)
    (hb : d.hasBuilder = true) (hf : f ∈ d.fields) (ht : f.ty ≠ .tail) (hv : HasType f v)
    (hn : SignedNan f v) : f.bytes v = .error .unwrap := by
  obtain ⟨⟨lo, hi, hr, hlo⟩, neg, hneg⟩ := hn
  have hB := build_field hd hb hf ht
  unfold buildB at hB
  rw [Bool.and_eq_true] at hB
  have hB := hB.2
  rcases hneg with rfl | rfl
  · have hm : f.map = some .f32 := by
      unfold HasType at hv
      revert hv
      cases f.map with
      | none => simp
      | some c => cases c <;> simp
    rw [hm] at hB
    obtain ⟨s, hs⟩ := Option.isSome_iff_exists.mp hB
    exact c43_nan_panics hd hb hf hs hm rfl hr hlo
  · have hm : f.map = some .f64 := by
      unfold HasType at hv
      revert hv
      cases f.map with
      | none => simp
      | some c => cases c <;> simp
    rw [hm] at hB
    obtain ⟨s, hs⟩ := Option.isSome_iff_exists.mp hB
    exact c43_nan_panics hd hb hf hs hm rfl hr hlo

/-- Only values of the right type have bytes. -/
theorem hasType_of_bytes {f : FieldDesc} {v : Val} {k : Bytes} (h : f.bytes v = .ok k) :
    HasType f v := by
  unfold FieldDesc.bytes at h
  unfold HasType
  revert h
  cases f.map with
  | none =>
    cases v <;> simp only [reduceCtorEq, false_implies]
    rename_i r
    split
    · intro; assumption
    · intro h; cases h
  | some c =>
    simp only
    cases hr : c.intoRaw f.scale f.ty v with
    | error e => intro h; cases h
    | ok r =>
      intro _
      revert hr
      unfold Conv.intoRaw
      split
      all_goals first
        | exact fun _ => trivial
        | (intro h; cases h; done)
        | skip
      · split
        · rename_i h
          intro _
          simp only [Bool.and_eq_true, List.contains_iff_mem] at h
          exact h.2
        · intro h; cases h
      · split
        · rename_i g x h
          intro _
          simp only [Bool.and_eq_true, beq_iff_eq] at h
          simp only
          rw [← h.2]; exact FlagsDesc.fromBitsTruncate_lt _ _
        · intro h; cases h

theorem packFields_inv {fs : List FieldDesc} {b : Builder} {off : Nat} {ret res : Bytes}
    (h : packFields fs b off ret = .ok res) :
    b.length = fs.length ∧ ∀ (i : Nat) (f : FieldDesc) (v : Val), fs[i]? = some f →
      b[i]? = some v → ∃ k, f.bytes v = .ok k := by
  induction fs generalizing b off ret with
  | nil =>
    match b, h with
    | [], _ => exact ⟨rfl, by simp⟩
  | cons f fs ih =>
    match b, h with
    | v :: b, h =>
      rw [packFields] at h
      revert h
      cases f.ty.size with
      | none => intro h; cases h
      | some n =>
        simp only
        cases hk : f.bytes v with
        | error e => intro h; cases h
        | ok k =>
          rw [Except.ok_bind]
          cases hp : packField k n off 0 ret with
          | error e => intro h; cases h
          | ok ret' =>
            rw [Except.ok_bind]
            intro h
            obtain ⟨h1, h2⟩ := ih h
            refine ⟨by simp [h1], fun i g w hg hw => ?_⟩
            cases i with
            | zero => cases hg; cases hw; exact ⟨k, hk⟩
            | succ i => exact h2 i g w hg hw

/-- `into_packet_bytes` returns only if there is no NaN in a signed field. -/
theorem buildable_of_ok {d : PackDesc} (hd : d ∈ allPackets) (hb : d.hasBuilder = true)
    (ht : ∀ f ∈ d.fields, f.ty ≠ .tail) {b : Builder} {full : Bytes}
    (h : d.intoPacketBytes b = .ok full) : Buildable d.fields b := by
  have : ∃ off ret res, packFields d.fields b off ret = .ok res := by
    unfold PackDesc.intoPacketBytes at h
    revert h
    split
    · intro h; cases h
    · split
      · intro h; cases h
      · intro h
        rename_i size _ _
        simp only at h
        have hl : (List.replicate (size + 8) (0 : UInt8)).length = size + 8 := by simp
        generalize List.replicate (size + 8) (0 : UInt8) = ret at h hl
        rw [setByte_ok _ (by omega), Except.ok_bind, setByte_ok _ (by simp; omega), Except.ok_bind,
          setByte_ok _ (by simp; omega), Except.ok_bind, setByte_ok _ (by simp; omega),
          Except.ok_bind, setByte_ok _ (by simp; omega), Except.ok_bind,
          setByte_ok _ (by simp; omega), Except.ok_bind] at h
        revert h
        generalize hp : packFields d.fields b 6 _ = r
        cases r with
        | error e => intro h; cases h
        | ok res => exact fun _ => ⟨_, _, res, hp⟩
  obtain ⟨_, _, _, h⟩ := this
  obtain ⟨h1, h2⟩ := packFields_inv h
  refine ⟨h1, fun i f v hf hv => ?_⟩
  obtain ⟨k, hk⟩ := h2 i f v hf hv
  have hty := hasType_of_bytes hk
  refine ⟨hty, fun hn => ?_⟩
  have hm := List.mem_of_getElem? hf
  rw [signedNan_bytes hd hb hm (ht f hm) hty hn] at hk
  cases hk

end Ublox
