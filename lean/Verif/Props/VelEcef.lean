import Verif.Props.Packet

/-!
# C54: velocity components of NAV-VELECEF
-/

namespace Ublox.Props

open Spec Gen

/-- The 32-bit two's complement number at an offset. -/
def signedAt (payload : Bytes) (off : Nat) : Int := signedOf 32 (leNat ((payload.drop off).take 4))

/-- The accessor returns a number, namely this one. -/
def ReadsAs (r : R Val) (n : Int) : Prop :=
  (∃ v : Int32, r = .ok (.raw (.i32 v)) ∧ v.toInt = n) ∨
  ∃ v : UInt32, r = .ok (.raw (.u32 v)) ∧ (v.toNat : Int) = n

/-- **C54**, partial: the x and y components of the velocity in a delivered NAV-VELECEF are the
signed numbers in the payload; the z component is only if it is not negative
(`c54_negative_vz`). -/
theorem c54_velocity_partial {cls id : UInt8} {payload p : Bytes}
    (h : matchPacket cls id payload = .ok (.ok (.known navVelECEF_ p))) :
    ReadsAs (navVelECEF_.get "ecef_vx" p) (signedAt p 4) ∧
    ReadsAs (navVelECEF_.get "ecef_vy" p) (signedAt p 8) ∧
    (0 ≤ signedAt p 12 → ReadsAs (navVelECEF_.get "ecef_vz" p) (signedAt p 12)) := by
  obtain ⟨-, hv⟩ := delivered h
  have hl := lenOk_total_le hv.1
  have hd : navVelECEF_ ∈ allPackets := by decide +kernel
  have hk : navVelECEF_.kind ≠ .send := by decide
  refine ⟨?_, ?_, fun h0 => ?_⟩
  · obtain ⟨r, r1, r2, r3, -⟩ := c21_accessor hd hk (i := 1) rfl (by decide) hl
    cases r <;> simp [RawVal.ofTy] at r1
    exact .inl ⟨_, r3 rfl, r2.2⟩
  · obtain ⟨r, r1, r2, r3, -⟩ := c21_accessor hd hk (i := 2) rfl (by decide) hl
    cases r <;> simp [RawVal.ofTy] at r1
    exact .inl ⟨_, r3 rfl, r2.2⟩
  · obtain ⟨r, r1, r2, r3, -⟩ := c21_accessor hd hk (i := 3) rfl (by decide) hl
    cases r <;> simp [RawVal.ofTy] at r1
    rename_i w
    refine .inr ⟨w, r3 rfl, ?_⟩
    have e : w.toNat = leNat ((p.drop 12).take 4) := r2.2
    have hw := w.toNat_lt
    unfold signedAt signedOf at h0 ⊢
    rw [← e] at h0 ⊢
    split at h0
    · rw [if_pos (by assumption)]
    · omega

/-- **C54**, violated for every negative z component: the accessor returns a number that is larger
by 2^32. -/
theorem c54_negative_vz {cls id : UInt8} {payload p : Bytes}
    (h : matchPacket cls id payload = .ok (.ok (.known navVelECEF_ p)))
    (h0 : signedAt p 12 < 0) :
    ReadsAs (navVelECEF_.get "ecef_vz" p) (signedAt p 12 + 4294967296) ∧
    ¬ ReadsAs (navVelECEF_.get "ecef_vz" p) (signedAt p 12) := by
  obtain ⟨-, hv⟩ := delivered h
  have hl := lenOk_total_le hv.1
  have hd : navVelECEF_ ∈ allPackets := by decide +kernel
  have hk : navVelECEF_.kind ≠ .send := by decide
  obtain ⟨r, r1, r2, r3, -⟩ := c21_accessor hd hk (i := 3) rfl (by decide) hl
  cases r <;> simp [RawVal.ofTy] at r1
  rename_i w
  have e : w.toNat = leNat ((p.drop 12).take 4) := r2.2
  have hget : navVelECEF_.get "ecef_vz" p = .ok (.raw (.u32 w)) := r3 rfl
  have hw := w.toNat_lt
  rw [hget]
  constructor
  · refine .inr ⟨w, rfl, ?_⟩
    unfold signedAt signedOf at h0 ⊢
    rw [← e] at h0 ⊢
    split at h0
    · omega
    · rw [if_neg (by assumption)]; omega
  · rintro (⟨v, hv, -⟩ | ⟨v, hv, hn⟩)
    · cases hv
    · omega

/-- Minus one centimetre per second in all directions. -/
example :
    let p : Bytes := List.replicate 4 0 ++ List.replicate 12 0xff ++ List.replicate 4 0
    matchPacket 0x01 0x11 p = .ok (.ok (.known navVelECEF_ p)) ∧
    signedAt p 4 = -1 ∧ signedAt p 12 = -1 ∧
    navVelECEF_.get "ecef_vz" p = .ok (.raw (.u32 4294967295)) := by decide +kernel

/-- **C54**, exactly: the accessor of the third component gives the velocity of the payload if and
only if that velocity is not negative. -/
theorem c54_vz_iff {cls id : UInt8} {payload p : Bytes}
    (h : matchPacket cls id payload = .ok (.ok (.known navVelECEF_ p))) :
    ReadsAs (navVelECEF_.get "ecef_vz" p) (signedAt p 12) ↔ 0 ≤ signedAt p 12 :=
  ⟨fun hr => Classical.byContradiction fun hn => (c54_negative_vz h (by omega)).2 hr,
    (c54_velocity_partial h).2.2⟩

end Ublox.Props
