import Verif.Lemmas.BuildBack
import Verif.Lemmas.CfgVal

/-! # `extend_to` -/

namespace Ublox
open Spec Gen Props

theorem extendCfgVals_eq {M : Nat} {vs : List CfgVal} (h : ∀ v ∈ vs, IsCfgVal cfgItems v)
    (out : Bytes) (len : Nat) (hM : len + (cfgKvs vs).length ≤ M) :
    extendCfgVals M vs out len = .ok (out ++ cfgKvs vs, len + (cfgKvs vs).length) := by
  induction vs generalizing out len with
  | nil => simp [extendCfgVals, cfgKvs]
  | cons v vs ih =>
    have e : cfgKvs (v :: vs) = cfgKv v ++ cfgKvs vs := rfl
    rw [e] at hM ⊢
    rw [List.length_append] at hM ⊢
    rw [extendCfgVals, CfgVal.extendTo_eq (h v (by simp)), Except.ok_bind]
    simp only
    rw [uadd_ok (by omega), Except.ok_bind, ih (fun w hw => h w (by simp [hw])) _ _ (by omega),
      List.append_assoc, Nat.add_assoc]

theorem extendFields_eq {M : Nat} {fs : List FieldDesc} {b : Builder} {ks : List Bytes}
    (h : Blocks fs b ks) {t : FieldDesc} (ht : t.ty = .tail) {vs : List CfgVal}
    (hv : ∀ v ∈ vs, IsCfgVal cfgItems v) (out : Bytes) (len : Nat)
    (hM : len + (ks.flatten ++ cfgKvs vs).length ≤ M) :
    extendFields M (fs ++ [t]) (b ++ [.cfgVals vs]) out len =
      .ok (out ++ (ks.flatten ++ cfgKvs vs), len + (ks.flatten ++ cfgKvs vs).length) := by
  induction fs generalizing b ks out len with
  | nil =>
    match b, ks, h with
    | [], [], _ =>
      simp only [List.nil_append, List.flatten_nil] at hM ⊢
      have hs : t.ty.size = none := by rw [ht]; rfl
      simp only [extendFields, hs]
      exact extendCfgVals_eq hv out len hM
  | cons f fs ih =>
    match b, ks, h with
    | v :: b, k :: ks, ⟨h1, h2, h3, h4⟩ =>
      simp only [List.flatten_cons, List.append_assoc, List.cons_append, List.length_append] at hM ih ⊢
      rw [extendFields]
      simp only [size_some h3]
      rw [h1, Except.ok_bind, uadd_ok (by omega), Except.ok_bind,
        ih h4 _ _ (by omega), List.append_assoc]
      · congr 2
        omega
      · simp

/-- What `extend_to` leaves in the output. -/
def extended (out : Bytes) (cls id : UInt8) (payload : Bytes) : Bytes :=
  let o := ((out ++ ([0xb5, 0x62, cls, id, 0, 0] ++ payload)).set 4 (UInt8.ofNat payload.length)).set 5
    (UInt8.ofNat (payload.length / 256))
  o ++ [ckA (o.drop 2), ckB (o.drop 2)]

theorem extendTo_eq {M : Nat} {d : PackDesc} (hb : d.hasBuilder = true) {fs : List FieldDesc}
    {t : FieldDesc} (hd : d.fields = fs ++ [t]) (ht : t.ty = .tail) {b : Builder} {ks : List Bytes}
    (h : Blocks fs b ks) {vs : List CfgVal}
    (hv : ∀ v ∈ vs, IsCfgVal cfgItems v) (out : Bytes) (hM : (ks.flatten ++ cfgKvs vs).length ≤ M) :
    d.extendTo M (b ++ [.cfgVals vs]) out = .ok (extended out d.cls d.id (ks.flatten ++ cfgKvs vs)) := by
  have hs : d.packetPayloadSize = none := by
    unfold PackDesc.packetPayloadSize
    rw [hd]
    clear h hd hM
    induction fs with
    | nil => simp [fieldsSize, ht, RawTy.size]
    | cons f fs ih =>
      rw [List.cons_append, fieldsSize, ih]
      cases f.ty.size <;> rfl
  unfold PackDesc.extendTo
  rw [hs]
  simp only [hb, not_true_eq_false, if_false]
  rw [hd, extendFields_eq h ht hv _ _ (by omega), Except.ok_bind]
  simp only [Nat.zero_add]
  generalize ks.flatten ++ cfgKvs vs = p
  rw [setByte_ok _ (by simp; omega), Except.ok_bind, setByte_ok _ (by simp; omega), Except.ok_bind]
  unfold sliceFrom
  rw [if_pos (by simp; omega), Except.ok_bind]
  simp only [ubxChecksum_eq]
  unfold extended
  simp [SYNC_CHAR_1, SYNC_CHAR_2]
  rfl

end Ublox
