import Verif.Lemmas.ExecPack

/-!
# Evaluation of loops, of the writing functions and of the remaining ones
-/

namespace Ublox.Exec

open Code Spec Gen

attribute [local irreducible] Exec.run Code.lift Exec.runFn

variable (m : Mach) (k : Nat)

@[exec] theorem elems_bytes (bs : Bytes) : elems (.bytes bs) = some (bs.map .u8) := rfl
@[exec] theorem elems_list (vs : List W) : elems (.list vs) = some vs := rfl

/-! ## Checksums -/

theorem checksum_loop (bs : Bytes) (a b : UInt8) (data : W) (body : W → Env → Res)
    (h : ∀ a b x, body (.u8 x) [(i!"ck_b", .u8 b), (i!"ck_a", .u8 a), (i!"data", data)] =
      .ok (.val .unit, [(i!"ck_b", .u8 (b + (a + x))), (i!"ck_a", .u8 (a + x)), (i!"data", data)])) :
    forLoop body (bs.map .u8) [(i!"ck_b", .u8 b), (i!"ck_a", .u8 a), (i!"data", data)] =
      .ok (.val .unit, [(i!"ck_b", .u8 (ubxChecksum.loop bs a b).2), (i!"ck_a", .u8 (ubxChecksum.loop bs a b).1),
        (i!"data", data)]) := by
  induction bs generalizing a b with
  | nil => rfl
  | cons x bs ih => rw [List.map_cons, forLoop, h, ubxChecksum.loop]; exact ih _ _

theorem checksum_body (me : Name) (bs : Bytes) :
    runFn (ctx m k me) metaRs_ubx_checksum [.bytes bs] =
      .ok (.pair (.u8 (ubxChecksum bs).1) (.u8 (ubxChecksum bs).2), .unit) := by
  unfold metaRs_ubx_checksum
  simp only [rust, exec]
  rw [checksum_loop bs 0 0 (.bytes bs) _ (fun a b x => by simp only [rust, exec, forBody])]
  simp only [rust, exec]
  rfl

theorem ubx_checksum_run (bs : Bytes) :
    run program m (k + 1) [i!"mod"] i!"" i!"ubx_checksum" [.bytes bs] =
      .ok (.pair (.u8 (ubxChecksum bs).1) (.u8 (ubxChecksum bs).2), .unit) := by
  rw [run_fn metaRs_ubx_checksum_lookup, checksum_body]

theorem update_loop (bs : Bytes) (ck : ChecksumCalc) (data : W) (body : W → Env → Res)
    (h : ∀ ck x, body (.u8 x) [(i!"self", calcV ck), (i!"chunk", data)] =
      .ok (.val .unit, [(i!"self", calcV (ck.update [x])), (i!"chunk", data)])) :
    forLoop body (bs.map .u8) [(i!"self", calcV ck), (i!"chunk", data)] =
      .ok (.val .unit, [(i!"self", calcV (ck.update bs)), (i!"chunk", data)]) := by
  induction bs generalizing ck with
  | nil => rfl
  | cons x bs ih => rw [List.map_cons, forLoop, h]; exact ih _

theorem UbxChecksumCalc_update (ck : ChecksumCalc) (bs : Bytes) :
    run program m (k + 1) [] i!"UbxChecksumCalc" i!"update" [calcV ck, .bytes bs] =
      .ok (.unit, calcV (ck.update bs)) := by
  exec_fn metaRs_UbxChecksumCalc_update_lookup, metaRs_UbxChecksumCalc_update []
  rw [update_loop bs ck (.bytes bs) _ (fun ck x => by simp only [rust, exec, forBody, Spec.calcV]; rfl)]
  simp only [rust, exec]

theorem UbxChecksumCalc_result (ck : ChecksumCalc) :
    run program m (k + 1) [] i!"UbxChecksumCalc" i!"result" [calcV ck] =
      .ok (.pair (.u8 ck.result.1) (.u8 ck.result.2), calcV ck) := by
  exec_fn metaRs_UbxChecksumCalc_result_lookup, metaRs_UbxChecksumCalc_result [Spec.calcV]
  rfl

/-! ## Writing -/

theorem Vec_reserve_allocate (w : Bytes) (n : Nat) :
    run program m (k + 1) [] i!"Vec" i!"reserve_allocate" [.bytes w, .usize n] = .ok (okV .unit, .bytes w) := by
  exec_fn metaRs_Vec_MemWriter_reserve_allocate_lookup, metaRs_Vec_MemWriter_reserve_allocate []

theorem Vec_write (w buf : Bytes) :
    run program m (k + 1) [] i!"Vec" i!"write" [.bytes w, .bytes buf] = .ok (okV .unit, .bytes (w ++ buf)) := by
  exec_fn metaRs_Vec_MemWriter_write_lookup, metaRs_Vec_MemWriter_write []

/-! ## Requests -/

theorem UbxPacketRequest_PACKET_LEN :
    run program m (k + 1) [] i!"UbxPacketRequest" i!"PACKET_LEN" [] = .ok (.usize 8, .unit) := by
  exec_fn metaRs_UbxPacketRequest_PACKET_LEN_lookup, metaRs_UbxPacketRequest_PACKET_LEN []

theorem UbxPacketRequest_request_for :
    run program m (k + 1) [] i!"UbxPacketRequest" i!"request_for" [] =
      .ok (.struct i!"UbxPacketRequest" [(i!"req_class", .u8 m.cls), (i!"req_id", .u8 m.id)], .unit) := by
  exec_fn metaRs_UbxPacketRequest_request_for_lookup, metaRs_UbxPacketRequest_request_for []

theorem UbxPacketRequest_request_for_unknown (c i : UInt8) :
    run program m (k + 1) [] i!"UbxPacketRequest" i!"request_for_unknown" [.u8 c, .u8 i] =
      .ok (.struct i!"UbxPacketRequest" [(i!"req_class", .u8 c), (i!"req_id", .u8 i)], .unit) := by
  exec_fn metaRs_UbxPacketRequest_request_for_unknown_lookup, metaRs_UbxPacketRequest_request_for_unknown []

theorem sync1_lookup : lookup program.impls [modName] 0 i!"SYNC_CHAR_1" = some metaRs_SYNC_CHAR_1 := by kernel_rfl
theorem sync2_lookup : lookup program.impls [modName] 0 i!"SYNC_CHAR_2" = some metaRs_SYNC_CHAR_2 := by kernel_rfl
theorem checksum_lookup : lookup program.impls [modName] 0 i!"ubx_checksum" = some metaRs_ubx_checksum := by kernel_rfl

theorem sync1_run : run program m (k + 1) [modName] 0 i!"SYNC_CHAR_1" [] = .ok (.u8 0xb5, .unit) := by
  exec_fn sync1_lookup, metaRs_SYNC_CHAR_1 []
theorem sync2_run : run program m (k + 1) [modName] 0 i!"SYNC_CHAR_2" [] = .ok (.u8 0x62, .unit) := by
  exec_fn sync2_lookup, metaRs_SYNC_CHAR_2 []
theorem checksum_run (bs : Bytes) : run program m (k + 1) [modName] 0 i!"ubx_checksum" [.bytes bs] =
    .ok (.pair (.u8 (ubxChecksum bs).1) (.u8 (ubxChecksum bs).2), .unit) := by
  rw [run_fn checksum_lookup, checksum_body]

theorem UbxPacketRequest_into_packet_bytes (c i : UInt8) :
    run program m (k + 2) [] i!"UbxPacketRequest" i!"into_packet_bytes"
      [.struct i!"UbxPacketRequest" [(i!"req_class", .u8 c), (i!"req_id", .u8 i)]] =
      returns (requestBytes c i) (.struct i!"UbxPacketRequest" [(i!"req_class", .u8 c), (i!"req_id", .u8 i)]) .bytes := by
  exec_fn metaRs_UbxPacketRequest_into_packet_bytes_lookup, metaRs_UbxPacketRequest_into_packet_bytes
    [sync1_run, sync2_run, checksum_run, requestBytes, lift_bindR, lift_pureR, SYNC_CHAR_1, SYNC_CHAR_2]

/-! ## AID-INI -/

attribute [local exec] positionV aidIniV

theorem AidIniBuilder_set_position (b : AidIniBuilder) (pos : Position) :
    run program m (k + 1) [] i!"AidIniBuilder" i!"set_position" [aidIniV b, positionV pos] =
      .ok (aidIniV (b.setPosition pos), aidIniV (b.setPosition pos)) := by
  exec_fn packetsRs_AidIniBuilder_set_position_lookup, packetsRs_AidIniBuilder_set_position [AidIniBuilder.setPosition]
  rfl

theorem lift_congr_ok {α β : Type} (x : R α) (f g : α → O β) (h : ∀ a, x = .ok a → f a = g a) : lift x f = lift x g := by
  cases x with
  | ok a => simp only [rust]; exact h a rfl
  | error e => simp only [rust]

theorem usub_ok {a b n : Nat} (h : usub a b = .ok n) : n ≤ a := by
  unfold usub at h; split at h <;> cases h; omega
theorem uadd_ok {M a b n : Nat} (h : uadd M a b = .ok n) : n ≤ M := by
  unfold uadd at h; split at h <;> cases h; assumption
theorem umul_ok {M a b n : Nat} (h : AidIniBuilder.umul M a b = .ok n) : n ≤ M := by
  unfold AidIniBuilder.umul at h; split at h <;> cases h; assumption

theorem u32_back {n : Nat} (h : n ≤ 4294967295) : (UInt32.ofNat n).toNat = n := by
  simp only [UInt32.toNat_ofNat']; omega

theorem AidIniBuilder_set_time (b : AidIniBuilder) (tm : DateTime) (hy : tm.yearCe.2 < 4294967296)
    (hm : tm.month0 < 4294967296) (hs : tm.time.secs < 86400) (hf : tm.nanosecond < 4294967296) :
    run program m (k + 1) [] i!"AidIniBuilder" i!"set_time" [aidIniV b, .dateTime tm] =
      lift (b.setTime tm) fun b => .ok (aidIniV b, aidIniV b) := by
  have h1 : tm.hour ≤ 4294967295 := by unfold DateTime.hour; omega
  have h2 : tm.minute ≤ 4294967295 := by unfold DateTime.minute; omega
  have h3 : tm.second ≤ 4294967295 := by unfold DateTime.second; omega
  have h4 : tm.month0 ≤ 4294967295 := by omega
  rcases h : tm.yearCe with ⟨ce, y⟩
  rw [h] at hy
  have h5 : y ≤ 4294967295 := by simp only at hy; omega
  cases ce
  · exec_fn packetsRs_AidIniBuilder_set_time_lookup, packetsRs_AidIniBuilder_set_time
      [AidIniBuilder.setTime, lift_bindR, lift_pureR, h]
  · exec_fn packetsRs_AidIniBuilder_set_time_lookup, packetsRs_AidIniBuilder_set_time
      [AidIniBuilder.setTime, lift_bindR, lift_pureR, h, u32_back h1, u32_back h2, u32_back h3, u32_back h4, u32_back h5]
    refine lift_congr_ok _ _ _ fun a ha => ?_
    rw [u32_back (Nat.le_trans (usub_ok ha) h5)]
    refine lift_congr_ok _ _ _ fun a ha => ?_
    rw [u32_back (umul_ok ha)]
    refine lift_congr_ok _ _ _ fun a ha => ?_
    refine lift_congr_ok _ _ _ fun a ha => ?_
    rw [u32_back (umul_ok ha)]
    refine lift_congr_ok _ _ _ fun a ha => ?_
    rw [u32_back (umul_ok ha)]
    refine lift_congr_ok _ _ _ fun a ha => ?_
    rw [u32_back (uadd_ok ha)]
    refine lift_congr_ok _ _ _ fun a ha => ?_
    have : ∀ n, (UInt32.ofNat n).toUInt16 = UInt16.ofNat n := fun n => by
      apply UInt16.toNat_inj.mp; simp [UInt32.toNat_toUInt16, UInt32.toNat_ofNat', UInt16.toNat_ofNat']
    rw [this]
    rfl

/-! ## Configuration values -/

@[exec] theorem program_items : program.items = cfgItems := rfl

theorem CfgValIter_next (it : CfgValIter) :
    run program m (k + 1) [] i!"CfgValIter" i!"next" [cfgIterV it] =
      lift (it.next m.M cfgItems) fun r => .ok (optV (r.1.map .cfg), cfgIterV r.2) := by
  exec_fn packetsRs_CfgValIter_Iterator_next_lookup, packetsRs_CfgValIter_Iterator_next [cfgIterV, CfgValIter.next, lift_bindR, lift_pureR]

theorem forLoop_cons (body : W → Env → Res) (x : W) (xs : List W) (env : Env) :
    forLoop body (x :: xs) env = bindV (body x env) fun _ env => forLoop body xs env := by
  rw [forLoop]; generalize body x env = r; rcases r with _ | ⟨_ | _, _⟩ <;> rfl

theorem writeAll_loop (vs : List CfgVal) (data : Bytes) (off : Nat) (values : W) (body : W → Env → Res)
    (h : ∀ data off v, body (.cfg v) [(i!"offset", .usize off), (i!"data", .bytes data), (i!"values", values)] =
      lift (sliceFrom data off) fun rest => lift (v.writeTo rest) fun r => lift (uadd m.M off r.2) fun n =>
        .ok (.val .unit, [(i!"offset", .usize n), (i!"data", .bytes (data.take off ++ r.1)), (i!"values", values)])) :
    forLoop body (vs.map .cfg) [(i!"offset", .usize off), (i!"data", .bytes data), (i!"values", values)] =
      lift (CfgValIter.writeAll m.M vs data off) fun r =>
        .ok (.val .unit, [(i!"offset", .usize r.2), (i!"data", .bytes r.1), (i!"values", values)]) := by
  induction vs generalizing data off with
  | nil => simp only [CfgValIter.writeAll, rust, List.map_nil, forLoop]
  | cons x bs ih =>
    rw [List.map_cons, forLoop_cons, h, CfgValIter.writeAll]
    simp only [lift_bindR, rust, exec, ih]

theorem CfgValIter_new (data : Bytes) (vs : List CfgVal) :
    run program m (k + 1) [] i!"CfgValIter" i!"new" [.bytes data, .list (vs.map .cfg)] =
      returns (CfgValIter.new m.M data vs) .unit cfgIterV := by
  cases vs with
  | nil =>
    exec_fn packetsRs_CfgValIter_new_lookup, packetsRs_CfgValIter_new
      [cfgIterV, CfgValIter.new, lift_bindR, lift_pureR, forLoop, CfgValIter.writeAll, List.map_nil]
  | cons v vs =>
    exec_fn packetsRs_CfgValIter_new_lookup, packetsRs_CfgValIter_new
      [cfgIterV, CfgValIter.new, lift_bindR, lift_pureR, List.map_cons, forLoop_cons, CfgValIter.writeAll]
    refine lift_congr_ok _ _ _ fun a _ => lift_congr_ok _ _ _ fun b _ => lift_congr_ok _ _ _ fun c _ => ?_
    rw [writeAll_loop m]
    · simp only [rust, exec]
    · intro data off v
      simp only [rust, exec]

end Ublox.Exec
