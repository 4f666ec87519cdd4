import Verif.Lemmas.ExecTypes
import Verif.Model.Ack
import Verif.Model.Position

/-!
# The accessors that the functions written by hand call
-/

namespace Ublox.Exec

open Code

variable {d : PackDesc} {n : Name} {s : String}

/-- Is the accessor that of a field with static size, with the properties? -/
def isField (d : PackDesc) (s : String) (q : FieldDesc → Bool) : Bool :=
  match d.getters.find? fun g => g.field.getName == s with
  | some g => g.field.ty.size.isSome && q g.field
  | none => false

theorem get_field {q : FieldDesc → Bool} (h : isField d s q = true) :
    ∃ g, d.getters.find? (fun g => g.field.getName == s) = some g ∧ q g.field = true ∧
      ∀ p, d.get s p = (do g.field.convert (← getRawField g.field g.off p)) := by
  unfold isField at h
  split at h
  · rename_i g hg
    rw [Bool.and_eq_true] at h
    refine ⟨g, hg, h.2, fun p => ?_⟩
    unfold PackDesc.get
    rw [hg]
    obtain ⟨k, hk⟩ := Option.isSome_iff_exists.1 h.1
    simp only [Getter.run, hk, Getter.runSized]
  · cases h

/-- A field that is converted to `f64` -/
def f64Field (f : FieldDesc) : Bool := f.map == some .f64

theorem accessor_f64 (hn : nameStr n = s) (h : isField d s f64Field = true) (p : Bytes) :
    accessor d p n = lift (d.getF64 s p) fun x => .ok (.fl fmt64 x) := by
  obtain ⟨g, -, hq, hg⟩ := get_field h
  have hm : g.field.map = some .f64 := by simpa [f64Field] using hq
  unfold accessor PackDesc.getF64
  rw [hn, hg]
  cases getRawField g.field g.off p with
  | error => rfl
  | ok r =>
    simp only [bind, Except.bind, FieldDesc.convert, hm, Conv.convert]
    cases r.toInt? with
    | none => rfl
    | some x => cases g.field.scale <;> rfl

/-- A field that is not converted -/
def plainField (ty : RawTy) (f : FieldDesc) : Bool :=
  f.map.isNone && f.scale.isNone && !f.getAsRef && f.ty == ty

theorem get_plain {ty : RawTy} (h : isField d s (plainField ty) = true) :
    ∃ f off, f.ty = ty ∧ f.getAsRef = false ∧ ∀ p, d.get s p = (do return .raw (← getRawField f off p)) := by
  obtain ⟨g, -, hq, hg⟩ := get_field h
  simp only [plainField, Bool.and_eq_true, Option.isNone_iff_eq_none, Bool.not_eq_true', beq_iff_eq] at hq
  refine ⟨g.field, g.off, hq.2, hq.1.2, fun p => ?_⟩
  rw [hg]
  simp only [FieldDesc.convert, hq.1.1.1, hq.1.1.2]
  cases getRawField g.field g.off p <;> rfl

theorem readBytes_error {data : Bytes} {off k : Nat} {e : Panic} (h : readBytes data off k = .error e) : e = .index := by
  induction k generalizing off e with
  | zero => simp [readBytes] at h
  | succ k ih =>
    unfold readBytes at h
    cases h1 : getByte data off with
    | error e' =>
      simp [h1, bind, Except.bind] at h
      unfold getByte at h1
      split at h1 <;> simp_all
    | ok b =>
      cases h2 : readBytes data (off + 1) k with
      | error e' =>
        have := ih h2
        simp_all [bind, Except.bind]
      | ok bs => simp [h1, h2, bind, Except.bind, pure, Except.pure] at h

theorem accessor_u8 (hn : nameStr n = s) (h : isField d s (plainField .u8) = true) (p : Bytes) :
    accessor d p n = lift (d.getU8 s p) fun x => .ok (.u8 x) := by
  obtain ⟨f, off, hty, href, hg⟩ := get_plain h
  unfold accessor PackDesc.getU8
  rw [hn, hg]
  simp only [getRawField, hty, href, RawTy.size]
  simp only [bind, Except.bind, pure, Except.pure, ne_eq, not_true_eq_false, false_or, Bool.false_eq_true,
    if_false, reduceCtorEq]
  cases getByte p off <;> rfl

theorem accessor_u16 (hn : nameStr n = s) (h : isField d s (plainField .u16) = true) (p : Bytes) :
    accessor d p n = lift (d.getU16 s p) fun x => .ok (.u16 x) := by
  obtain ⟨f, off, hty, href, hg⟩ := get_plain h
  unfold accessor PackDesc.getU16
  rw [hn, hg]
  simp only [getRawField, hty, href, RawTy.size, readBytes]
  simp only [bind, Except.bind, pure, Except.pure, ne_eq, Bool.false_eq_true, if_false, reduceCtorEq]
  cases getByte p off with
  | error => rfl
  | ok a => cases getByte p (off + 1) <;> rfl

theorem accessor_i32 (hn : nameStr n = s) (h : isField d s (plainField .i32) = true) (p : Bytes) :
    accessor d p n = lift (d.getI32 s p) fun x => .ok (.i32 x) := by
  obtain ⟨f, off, hty, href, hg⟩ := get_plain h
  unfold accessor PackDesc.getI32
  rw [hn, hg]
  simp only [getRawField, hty, href, RawTy.size, readBytes]
  simp only [bind, Except.bind, pure, Except.pure, ne_eq, Bool.false_eq_true, if_false, reduceCtorEq]
  cases getByte p off with
  | error => rfl
  | ok a =>
    cases getByte p (off + 1) with
    | error => rfl
    | ok a =>
      cases getByte p (off + 1 + 1) with
      | error => rfl
      | ok a => cases getByte p (off + 1 + 1 + 1) <;> rfl

@[exec] theorem navPosLlh_lon_degrees (p : Bytes) : accessor Gen.navPosLlh_ p i!"lon_degrees" =
    lift (Gen.navPosLlh_.getF64 "lon_degrees" p) fun x => .ok (.fl fmt64 x) :=
  accessor_f64 (by decide +kernel) (by decide +kernel) p
@[exec] theorem navPosLlh_lat_degrees (p : Bytes) : accessor Gen.navPosLlh_ p i!"lat_degrees" =
    lift (Gen.navPosLlh_.getF64 "lat_degrees" p) fun x => .ok (.fl fmt64 x) :=
  accessor_f64 (by decide +kernel) (by decide +kernel) p
@[exec] theorem navPosLlh_height_msl (p : Bytes) : accessor Gen.navPosLlh_ p i!"height_msl" =
    lift (Gen.navPosLlh_.getF64 "height_msl" p) fun x => .ok (.fl fmt64 x) :=
  accessor_f64 (by decide +kernel) (by decide +kernel) p
@[exec] theorem navHpPosLlh_lon_degrees (p : Bytes) : accessor Gen.navHpPosLlh_ p i!"lon_degrees" =
    lift (Gen.navHpPosLlh_.getF64 "lon_degrees" p) fun x => .ok (.fl fmt64 x) :=
  accessor_f64 (by decide +kernel) (by decide +kernel) p
@[exec] theorem navHpPosLlh_lon_hp_degrees (p : Bytes) : accessor Gen.navHpPosLlh_ p i!"lon_hp_degrees" =
    lift (Gen.navHpPosLlh_.getF64 "lon_hp_degrees" p) fun x => .ok (.fl fmt64 x) :=
  accessor_f64 (by decide +kernel) (by decide +kernel) p
@[exec] theorem navHpPosLlh_lat_degrees (p : Bytes) : accessor Gen.navHpPosLlh_ p i!"lat_degrees" =
    lift (Gen.navHpPosLlh_.getF64 "lat_degrees" p) fun x => .ok (.fl fmt64 x) :=
  accessor_f64 (by decide +kernel) (by decide +kernel) p
@[exec] theorem navHpPosLlh_lat_hp_degrees (p : Bytes) : accessor Gen.navHpPosLlh_ p i!"lat_hp_degrees" =
    lift (Gen.navHpPosLlh_.getF64 "lat_hp_degrees" p) fun x => .ok (.fl fmt64 x) :=
  accessor_f64 (by decide +kernel) (by decide +kernel) p
@[exec] theorem navHpPosLlh_height_msl (p : Bytes) : accessor Gen.navHpPosLlh_ p i!"height_msl" =
    lift (Gen.navHpPosLlh_.getF64 "height_msl" p) fun x => .ok (.fl fmt64 x) :=
  accessor_f64 (by decide +kernel) (by decide +kernel) p
@[exec] theorem navHpPosLlh_height_hp_msl (p : Bytes) : accessor Gen.navHpPosLlh_ p i!"height_hp_msl" =
    lift (Gen.navHpPosLlh_.getF64 "height_hp_msl" p) fun x => .ok (.fl fmt64 x) :=
  accessor_f64 (by decide +kernel) (by decide +kernel) p
@[exec] theorem navHpPosEcef_ecef_x_cm (p : Bytes) : accessor Gen.navHpPosEcef_ p i!"ecef_x_cm" =
    lift (Gen.navHpPosEcef_.getF64 "ecef_x_cm" p) fun x => .ok (.fl fmt64 x) :=
  accessor_f64 (by decide +kernel) (by decide +kernel) p
@[exec] theorem navHpPosEcef_ecef_y_cm (p : Bytes) : accessor Gen.navHpPosEcef_ p i!"ecef_y_cm" =
    lift (Gen.navHpPosEcef_.getF64 "ecef_y_cm" p) fun x => .ok (.fl fmt64 x) :=
  accessor_f64 (by decide +kernel) (by decide +kernel) p
@[exec] theorem navHpPosEcef_ecef_z_cm (p : Bytes) : accessor Gen.navHpPosEcef_ p i!"ecef_z_cm" =
    lift (Gen.navHpPosEcef_.getF64 "ecef_z_cm" p) fun x => .ok (.fl fmt64 x) :=
  accessor_f64 (by decide +kernel) (by decide +kernel) p
@[exec] theorem navHpPosEcef_ecef_x_hp_mm (p : Bytes) : accessor Gen.navHpPosEcef_ p i!"ecef_x_hp_mm" =
    lift (Gen.navHpPosEcef_.getF64 "ecef_x_hp_mm" p) fun x => .ok (.fl fmt64 x) :=
  accessor_f64 (by decide +kernel) (by decide +kernel) p
@[exec] theorem navHpPosEcef_ecef_y_hp_mm (p : Bytes) : accessor Gen.navHpPosEcef_ p i!"ecef_y_hp_mm" =
    lift (Gen.navHpPosEcef_.getF64 "ecef_y_hp_mm" p) fun x => .ok (.fl fmt64 x) :=
  accessor_f64 (by decide +kernel) (by decide +kernel) p
@[exec] theorem navHpPosEcef_ecef_z_hp_mm (p : Bytes) : accessor Gen.navHpPosEcef_ p i!"ecef_z_hp_mm" =
    lift (Gen.navHpPosEcef_.getF64 "ecef_z_hp_mm" p) fun x => .ok (.fl fmt64 x) :=
  accessor_f64 (by decide +kernel) (by decide +kernel) p
@[exec] theorem navVelNed_ground_speed (p : Bytes) : accessor Gen.navVelNed_ p i!"ground_speed" =
    lift (Gen.navVelNed_.getF64 "ground_speed" p) fun x => .ok (.fl fmt64 x) :=
  accessor_f64 (by decide +kernel) (by decide +kernel) p
@[exec] theorem navVelNed_heading_degrees (p : Bytes) : accessor Gen.navVelNed_ p i!"heading_degrees" =
    lift (Gen.navVelNed_.getF64 "heading_degrees" p) fun x => .ok (.fl fmt64 x) :=
  accessor_f64 (by decide +kernel) (by decide +kernel) p
@[exec] theorem navPvt_lon_degrees (p : Bytes) : accessor Gen.navPvt_ p i!"lon_degrees" =
    lift (Gen.navPvt_.getF64 "lon_degrees" p) fun x => .ok (.fl fmt64 x) :=
  accessor_f64 (by decide +kernel) (by decide +kernel) p
@[exec] theorem navPvt_lat_degrees (p : Bytes) : accessor Gen.navPvt_ p i!"lat_degrees" =
    lift (Gen.navPvt_.getF64 "lat_degrees" p) fun x => .ok (.fl fmt64 x) :=
  accessor_f64 (by decide +kernel) (by decide +kernel) p
@[exec] theorem navPvt_height_msl (p : Bytes) : accessor Gen.navPvt_ p i!"height_msl" =
    lift (Gen.navPvt_.getF64 "height_msl" p) fun x => .ok (.fl fmt64 x) :=
  accessor_f64 (by decide +kernel) (by decide +kernel) p
@[exec] theorem navPvt_ground_speed (p : Bytes) : accessor Gen.navPvt_ p i!"ground_speed" =
    lift (Gen.navPvt_.getF64 "ground_speed" p) fun x => .ok (.fl fmt64 x) :=
  accessor_f64 (by decide +kernel) (by decide +kernel) p
@[exec] theorem navPvt_heading_degrees (p : Bytes) : accessor Gen.navPvt_ p i!"heading_degrees" =
    lift (Gen.navPvt_.getF64 "heading_degrees" p) fun x => .ok (.fl fmt64 x) :=
  accessor_f64 (by decide +kernel) (by decide +kernel) p
@[exec] theorem navPvt_year (p : Bytes) : accessor Gen.navPvt_ p i!"year" =
    lift (Gen.navPvt_.getU16 "year" p) fun x => .ok (.u16 x) :=
  accessor_u16 (by decide +kernel) (by decide +kernel) p
@[exec] theorem navPvt_month (p : Bytes) : accessor Gen.navPvt_ p i!"month" =
    lift (Gen.navPvt_.getU8 "month" p) fun x => .ok (.u8 x) :=
  accessor_u8 (by decide +kernel) (by decide +kernel) p
@[exec] theorem navPvt_day (p : Bytes) : accessor Gen.navPvt_ p i!"day" =
    lift (Gen.navPvt_.getU8 "day" p) fun x => .ok (.u8 x) :=
  accessor_u8 (by decide +kernel) (by decide +kernel) p
@[exec] theorem navPvt_hour (p : Bytes) : accessor Gen.navPvt_ p i!"hour" =
    lift (Gen.navPvt_.getU8 "hour" p) fun x => .ok (.u8 x) :=
  accessor_u8 (by decide +kernel) (by decide +kernel) p
@[exec] theorem navPvt_min (p : Bytes) : accessor Gen.navPvt_ p i!"min" =
    lift (Gen.navPvt_.getU8 "min" p) fun x => .ok (.u8 x) :=
  accessor_u8 (by decide +kernel) (by decide +kernel) p
@[exec] theorem navPvt_sec (p : Bytes) : accessor Gen.navPvt_ p i!"sec" =
    lift (Gen.navPvt_.getU8 "sec" p) fun x => .ok (.u8 x) :=
  accessor_u8 (by decide +kernel) (by decide +kernel) p
@[exec] theorem navPvt_nanosecond (p : Bytes) : accessor Gen.navPvt_ p i!"nanosecond" =
    lift (Gen.navPvt_.getI32 "nanosecond" p) fun x => .ok (.i32 x) :=
  accessor_i32 (by decide +kernel) (by decide +kernel) p
@[exec] theorem ackAck_class (p : Bytes) : accessor Gen.ackAck_ p i!"class" =
    lift (Gen.ackAck_.getU8 "class" p) fun x => .ok (.u8 x) :=
  accessor_u8 (by decide +kernel) (by decide +kernel) p
@[exec] theorem ackAck_msg_id (p : Bytes) : accessor Gen.ackAck_ p i!"msg_id" =
    lift (Gen.ackAck_.getU8 "msg_id" p) fun x => .ok (.u8 x) :=
  accessor_u8 (by decide +kernel) (by decide +kernel) p
@[exec] theorem ackNak_class (p : Bytes) : accessor Gen.ackNak_ p i!"class" =
    lift (Gen.ackNak_.getU8 "class" p) fun x => .ok (.u8 x) :=
  accessor_u8 (by decide +kernel) (by decide +kernel) p
@[exec] theorem ackNak_msg_id (p : Bytes) : accessor Gen.ackNak_ p i!"msg_id" =
    lift (Gen.ackNak_.getU8 "msg_id" p) fun x => .ok (.u8 x) :=
  accessor_u8 (by decide +kernel) (by decide +kernel) p
@[exec] theorem esfMeas_flags (p : Bytes) : accessor Gen.esfMeas_ p i!"flags" =
    lift (Gen.esfMeas_.getU16 "flags" p) fun x => .ok (.u16 x) :=
  accessor_u16 (by decide +kernel) (by decide +kernel) p

end Ublox.Exec
