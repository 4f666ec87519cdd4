import Verif.Lemmas.ExecAccess

/-!
# Evaluation of the functions that work on packets
-/

namespace Ublox.Exec

open Code Spec Gen

attribute [local irreducible] Exec.run Code.lift Exec.runFn

variable (m : Mach) (k : Nat)

theorem lift_bindR {α β γ : Type} (x : R α) (f : α → R β) (h : β → O γ) :
    lift (x >>= f) h = lift x fun a => lift (f a) h := by cases x <;> simp only [rust, bind, Except.bind]

theorem lift_pureR {α β : Type} (x : α) (h : α → O β) : lift (pure x) h = h x := by simp only [pure, Except.pure, rust]

attribute [local exec] positionV ecefV velocityV dateTimeResultV dateTimeErrorV

/-! ## Positions, velocities, times -/

theorem Position_from_NavPosLlh (p : Bytes) :
    run program m (k + 1) [i!"From", i!"NavPosLlhRef"] i!"Position" i!"from" [.packet navPosLlh_ p] =
      returns (positionFromNavPosLlh p) .unit positionV := by
  exec_fn typesRs_Position_From_NavPosLlhRef_from_lookup, typesRs_Position_From_NavPosLlhRef_from
    [positionFromNavPosLlh, lift_bindR, lift_pureR]

theorem Position_from_NavHpPosLlh (p : Bytes) :
    run program m (k + 1) [i!"From", i!"NavHpPosLlhRef"] i!"Position" i!"from" [.packet navHpPosLlh_ p] =
      returns (positionFromNavHpPosLlh p) .unit positionV := by
  exec_fn typesRs_Position_From_NavHpPosLlhRef_from_lookup, typesRs_Position_From_NavHpPosLlhRef_from
    [positionFromNavHpPosLlh, lift_bindR, lift_pureR]

theorem PositionECEF_from_NavHpPosEcef (p : Bytes) :
    run program m (k + 1) [] i!"PositionECEF" i!"from" [.packet navHpPosEcef_ p] =
      returns (positionFromNavHpPosEcef p) .unit ecefV := by
  exec_fn typesRs_PositionECEF_From_NavHpPosEcefRef_from_lookup, typesRs_PositionECEF_From_NavHpPosEcefRef_from
    [positionFromNavHpPosEcef, ecefCoordinate, lift_bindR, lift_pureR]
  rfl

theorem Velocity_from_NavVelNed (p : Bytes) :
    run program m (k + 1) [i!"From", i!"NavVelNedRef"] i!"Velocity" i!"from" [.packet navVelNed_ p] =
      returns (velocityFromNavVelNed p) .unit velocityV := by
  exec_fn typesRs_Velocity_From_NavVelNedRef_from_lookup, typesRs_Velocity_From_NavVelNedRef_from
    [velocityFromNavVelNed, lift_bindR, lift_pureR]

theorem Position_from_NavPvt (p : Bytes) :
    run program m (k + 1) [i!"From", i!"NavPvtRef"] i!"Position" i!"from" [.packet navPvt_ p] =
      returns (positionFromNavPvt p) .unit positionV := by
  exec_fn typesRs_Position_From_NavPvtRef_from_lookup, typesRs_Position_From_NavPvtRef_from
    [positionFromNavPvt, lift_bindR, lift_pureR]

theorem Velocity_from_NavPvt (p : Bytes) :
    run program m (k + 1) [i!"From", i!"NavPvtRef"] i!"Velocity" i!"from" [.packet navPvt_ p] =
      returns (velocityFromNavPvt p) .unit velocityV := by
  exec_fn typesRs_Velocity_From_NavPvtRef_from_lookup, typesRs_Velocity_From_NavPvtRef_from
    [velocityFromNavPvt, lift_bindR, lift_pureR]

theorem year_toInt (y : UInt16) : (Int32.ofNat y.toNat).toInt = y.toNat := by
  have := y.toNat_lt
  exact Int32.toInt_ofNat_of_lt (by omega)

theorem nanos_limit (x : UInt32) : ((!decide (x < 1000000000)) = true) = (1000000000 ≤ x.toNat) := by
  simp [UInt32.lt_iff_toNat_lt]

set_option maxHeartbeats 2000000 in
theorem DateTime_try_from (p : Bytes) :
    run program m (k + 1) [] i!"DateTime" i!"try_from" [.packet navPvt_ p] =
      returns (dateTimeFromNavPvt p) .unit dateTimeResultV := by
  cases h1 : navPvt_.getU16 "year" p with
  | error _ => exec_fn typesRs_DateTime_TryFrom_NavPvtRef_try_from_lookup, typesRs_DateTime_TryFrom_NavPvtRef_try_from
      [dateTimeFromNavPvt, lift_bindR, lift_pureR, year_toInt, UInt8.toNat_toUInt32, h1]
  | ok y =>
    cases h2 : navPvt_.getU8 "month" p with
    | error _ => exec_fn typesRs_DateTime_TryFrom_NavPvtRef_try_from_lookup, typesRs_DateTime_TryFrom_NavPvtRef_try_from
        [dateTimeFromNavPvt, lift_bindR, lift_pureR, year_toInt, UInt8.toNat_toUInt32, h1, h2]
    | ok mo =>
      cases h3 : navPvt_.getU8 "day" p with
      | error _ => exec_fn typesRs_DateTime_TryFrom_NavPvtRef_try_from_lookup, typesRs_DateTime_TryFrom_NavPvtRef_try_from
          [dateTimeFromNavPvt, lift_bindR, lift_pureR, year_toInt, UInt8.toNat_toUInt32, h1, h2, h3]
      | ok dd =>
        cases h4 : NaiveDate.fromYmdOpt y.toNat mo.toNat dd.toNat with
        | none => exec_fn typesRs_DateTime_TryFrom_NavPvtRef_try_from_lookup, typesRs_DateTime_TryFrom_NavPvtRef_try_from
            [dateTimeFromNavPvt, lift_bindR, lift_pureR, year_toInt, UInt8.toNat_toUInt32, h1, h2, h3, h4]
        | some date =>
          cases h5 : navPvt_.getU8 "hour" p with
          | error _ => exec_fn typesRs_DateTime_TryFrom_NavPvtRef_try_from_lookup, typesRs_DateTime_TryFrom_NavPvtRef_try_from
              [dateTimeFromNavPvt, lift_bindR, lift_pureR, year_toInt, UInt8.toNat_toUInt32, h1, h2, h3, h4, h5]
          | ok hh =>
            cases h6 : navPvt_.getU8 "min" p with
            | error _ => exec_fn typesRs_DateTime_TryFrom_NavPvtRef_try_from_lookup, typesRs_DateTime_TryFrom_NavPvtRef_try_from
                [dateTimeFromNavPvt, lift_bindR, lift_pureR, year_toInt, UInt8.toNat_toUInt32, h1, h2, h3, h4, h5, h6]
            | ok mi =>
              cases h7 : navPvt_.getU8 "sec" p with
              | error _ => exec_fn typesRs_DateTime_TryFrom_NavPvtRef_try_from_lookup, typesRs_DateTime_TryFrom_NavPvtRef_try_from
                  [dateTimeFromNavPvt, lift_bindR, lift_pureR, year_toInt, UInt8.toNat_toUInt32, h1, h2, h3, h4, h5, h6, h7]
              | ok ss =>
                cases h8 : NaiveTime.fromHmsOpt hh.toNat mi.toNat ss.toNat with
                | none => exec_fn typesRs_DateTime_TryFrom_NavPvtRef_try_from_lookup, typesRs_DateTime_TryFrom_NavPvtRef_try_from
                    [dateTimeFromNavPvt, lift_bindR, lift_pureR, year_toInt, UInt8.toNat_toUInt32, h1, h2, h3, h4, h5, h6, h7, h8]
                | some time =>
                  cases h9 : navPvt_.getI32 "nanosecond" p with
                  | error _ => exec_fn typesRs_DateTime_TryFrom_NavPvtRef_try_from_lookup, typesRs_DateTime_TryFrom_NavPvtRef_try_from
                      [dateTimeFromNavPvt, lift_bindR, lift_pureR, year_toInt, UInt8.toNat_toUInt32, h1, h2, h3, h4, h5, h6, h7, h8, h9]
                  | ok ns =>
                    cases h10 : DateTime.addNanoseconds ⟨date, time⟩ ns.toInt with
                    | error _ => exec_fn typesRs_DateTime_TryFrom_NavPvtRef_try_from_lookup, typesRs_DateTime_TryFrom_NavPvtRef_try_from
                        [dateTimeFromNavPvt, lift_bindR, lift_pureR, year_toInt, UInt8.toNat_toUInt32, h1, h2, h3, h4, h5, h6, h7, h8, h9, h10, nanos_limit]
                    | ok dt =>
                      exec_fn typesRs_DateTime_TryFrom_NavPvtRef_try_from_lookup, typesRs_DateTime_TryFrom_NavPvtRef_try_from
                          [dateTimeFromNavPvt, lift_bindR, lift_pureR, year_toInt, UInt8.toNat_toUInt32, h1, h2, h3, h4, h5, h6, h7, h8, h9, h10, nanos_limit]

/-! ## Acknowledgements and rates -/

theorem AckAckRef_is_ack_for (t : PackDesc) (hc : m.cls = t.cls) (hi : m.id = t.id) (p : Bytes) :
    run program m (k + 1) [] i!"AckAckRef" i!"is_ack_for" [.packet ackAck_ p] =
      returns (isAckFor t p) (.packet ackAck_ p) .bool := by
  exec_fn packetsRs_AckAckRef_is_ack_for_lookup, packetsRs_AckAckRef_is_ack_for [isAckFor, lift_bindR, lift_pureR, hc, hi]

theorem AckNakRef_is_nak_for (t : PackDesc) (hc : m.cls = t.cls) (hi : m.id = t.id) (p : Bytes) :
    run program m (k + 1) [] i!"AckNakRef" i!"is_nak_for" [.packet ackNak_ p] =
      returns (isNakFor t p) (.packet ackNak_ p) .bool := by
  exec_fn packetsRs_AckNakRef_is_nak_for_lookup, packetsRs_AckNakRef_is_nak_for [isNakFor, lift_bindR, lift_pureR, hc, hi]

theorem CfgMsgSinglePortBuilder_set_rate_for (rate : UInt8) :
    run program m (k + 1) [] i!"CfgMsgSinglePortBuilder" i!"set_rate_for" [.u8 rate] =
      .ok (.struct i!"CfgMsgSinglePortBuilder" [(i!"msg_class", .u8 m.cls), (i!"msg_id", .u8 m.id), (i!"rate", .u8 rate)],
        .unit) := by
  exec_fn packetsRs_CfgMsgSinglePortBuilder_set_rate_for_lookup, packetsRs_CfgMsgSinglePortBuilder_set_rate_for []

theorem CfgMsgAllPortsBuilder_set_rate_for (rates : Bytes) :
    run program m (k + 1) [] i!"CfgMsgAllPortsBuilder" i!"set_rate_for" [.bytes rates] =
      .ok (.struct i!"CfgMsgAllPortsBuilder" [(i!"msg_class", .u8 m.cls), (i!"msg_id", .u8 m.id), (i!"rates", .bytes rates)],
        .unit) := by
  exec_fn packetsRs_CfgMsgAllPortsBuilder_set_rate_for_lookup, packetsRs_CfgMsgAllPortsBuilder_set_rate_for []

/-! ## ESF-MEAS -/

theorem EsfMeas_calib_tag (bs : Bytes) :
    run program m (k + 1) [] i!"EsfMeas" i!"calib_tag" [.bytes bs] =
      .ok (optV ((u32FromSlice bs).toOption.map .u32), .unit) := by
  cases h : u32FromSlice bs <;>
  exec_fn packetsRs_EsfMeas_calib_tag_lookup, packetsRs_EsfMeas_calib_tag [h, Except.toOption]

theorem flagsOf_esfMeas (p : Bytes) : flagsOf esfMeas_ p = esfMeas_.getU16 "flags" p := by
  obtain ⟨g, h, hq, hg⟩ := get_field (d := esfMeas_) (s := "flags") (q := plainField .u16) (by decide +kernel)
  unfold flagsOf PackDesc.getU16
  rw [hg, h]
  rfl

theorem EsfMeasRef_data_len (hM : 65535 ≤ m.M) (p : Bytes) :
    run program m (k + 1) [] i!"EsfMeasRef" i!"data_len" [.packet esfMeas_ p] =
      returns (SizeFn.run .dataLen esfMeas_ p) (.packet esfMeas_ p) .usize := by
  exec_fn packetsRs_EsfMeasRef_data_len_lookup, packetsRs_EsfMeasRef_data_len
    [SizeFn.run, lift_bindR, lift_pureR, flagsOf_esfMeas]
  congr 1
  funext a
  have : (a >>> 11 &&& 31).toNat ≤ 31 := by
    rw [UInt16.toNat_and]
    exact Nat.and_le_right
  rw [AidIniBuilder.umul, if_pos (by omega)]
  simp only [rust]

theorem EsfMeasRef_calib_tag_len (p : Bytes) :
    run program m (k + 1) [] i!"EsfMeasRef" i!"calib_tag_len" [.packet esfMeas_ p] =
      returns (SizeFn.run .calibTagLen esfMeas_ p) (.packet esfMeas_ p) .usize := by
  exec_fn packetsRs_EsfMeasRef_calib_tag_len_lookup, packetsRs_EsfMeasRef_calib_tag_len
    [SizeFn.run, lift_bindR, lift_pureR, flagsOf_esfMeas]
  congr 1
  funext a
  by_cases h : a &&& 8 = 0 <;> simp [h]

/-! ## Scaling back -/

theorem ScaleBack_as_i8 (s x : Fl) :
    run program m (k + 1) [] i!"ScaleBack" i!"as_i8" [.adt [i!"ScaleBack"] [.fl m.fmt s], .fl m.fmt x] =
      returns (ScaleBack.asSigned ⟨m.fmt, s⟩ (-128) 127 x) (.adt [i!"ScaleBack"] [.fl m.fmt s])
        fun n => .i8 (Int8.ofInt n) := by
  cases h : ((Fl.mul m.fmt x s).roundInt.toInt? (-128) 127) <;>
  (exec_fn packetsRs_ScaleBack_as_i8_lookup, packetsRs_ScaleBack_as_i8 [ScaleBack.asSigned, ScaleBack.scaled, h]; rfl)

theorem ScaleBack_as_i16 (s x : Fl) :
    run program m (k + 1) [] i!"ScaleBack" i!"as_i16" [.adt [i!"ScaleBack"] [.fl m.fmt s], .fl m.fmt x] =
      returns (ScaleBack.asSigned ⟨m.fmt, s⟩ (-32768) 32767 x) (.adt [i!"ScaleBack"] [.fl m.fmt s])
        fun n => .i16 (Int16.ofInt n) := by
  cases h : ((Fl.mul m.fmt x s).roundInt.toInt? (-32768) 32767) <;>
  (exec_fn packetsRs_ScaleBack_as_i16_lookup, packetsRs_ScaleBack_as_i16 [ScaleBack.asSigned, ScaleBack.scaled, h]; rfl)

theorem ScaleBack_as_i32 (s x : Fl) :
    run program m (k + 1) [] i!"ScaleBack" i!"as_i32" [.adt [i!"ScaleBack"] [.fl m.fmt s], .fl m.fmt x] =
      returns (ScaleBack.asSigned ⟨m.fmt, s⟩ (-2147483648) 2147483647 x) (.adt [i!"ScaleBack"] [.fl m.fmt s])
        fun n => .i32 (Int32.ofInt n) := by
  cases h : ((Fl.mul m.fmt x s).roundInt.toInt? (-2147483648) 2147483647) <;>
  (exec_fn packetsRs_ScaleBack_as_i32_lookup, packetsRs_ScaleBack_as_i32 [ScaleBack.asSigned, ScaleBack.scaled, h]; rfl)

theorem ScaleBack_as_u8 (s x : Fl) :
    run program m (k + 1) [] i!"ScaleBack" i!"as_u8" [.adt [i!"ScaleBack"] [.fl m.fmt s], .fl m.fmt x] =
      returns (ScaleBack.asUnsigned ⟨m.fmt, s⟩ 255 x) (.adt [i!"ScaleBack"] [.fl m.fmt s])
        fun n => .u8 (UInt8.ofNat n.toNat) := by
  cases h : ((Fl.mul m.fmt x s).roundInt.toInt? 0 255) <;>
  (exec_fn packetsRs_ScaleBack_as_u8_lookup, packetsRs_ScaleBack_as_u8 [ScaleBack.asUnsigned, ScaleBack.scaled, h]; rfl)

theorem ScaleBack_as_u16 (s x : Fl) :
    run program m (k + 1) [] i!"ScaleBack" i!"as_u16" [.adt [i!"ScaleBack"] [.fl m.fmt s], .fl m.fmt x] =
      returns (ScaleBack.asUnsigned ⟨m.fmt, s⟩ 65535 x) (.adt [i!"ScaleBack"] [.fl m.fmt s])
        fun n => .u16 (UInt16.ofNat n.toNat) := by
  cases h : ((Fl.mul m.fmt x s).roundInt.toInt? 0 65535) <;>
  (exec_fn packetsRs_ScaleBack_as_u16_lookup, packetsRs_ScaleBack_as_u16 [ScaleBack.asUnsigned, ScaleBack.scaled, h]; rfl)

theorem ScaleBack_as_u32 (s x : Fl) :
    run program m (k + 1) [] i!"ScaleBack" i!"as_u32" [.adt [i!"ScaleBack"] [.fl m.fmt s], .fl m.fmt x] =
      returns (ScaleBack.asUnsigned ⟨m.fmt, s⟩ 4294967295 x) (.adt [i!"ScaleBack"] [.fl m.fmt s])
        fun n => .u32 (UInt32.ofNat n.toNat) := by
  cases h : ((Fl.mul m.fmt x s).roundInt.toInt? 0 4294967295) <;>
  (exec_fn packetsRs_ScaleBack_as_u32_lookup, packetsRs_ScaleBack_as_u32 [ScaleBack.asUnsigned, ScaleBack.scaled, h]; rfl)

end Ublox.Exec
