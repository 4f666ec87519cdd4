import Verif.Spec.Build
import Verif.Lemmas.Layout
import Verif.Lemmas.Validate
import Verif.Lemmas.Raw
import Verif.Lemmas.Checksum

/-! # Builders -/

namespace Ublox
open Spec

theorem setByte_ok {xs : Bytes} {i : Nat} (b : UInt8) (h : i < xs.length) :
    setByte xs i b = .ok (xs.set i b) := by simp [setByte, h]

theorem getByte_ok' {xs : Bytes} {i : Nat} (h : i < xs.length) : getByte xs i = .ok xs[i] := by
  simp [getByte, List.getElem?_eq_getElem h]

/-- Copying byte by byte replaces a slice. -/
theorem packField_eq (bytes : Bytes) (n off i : Nat) (ret : Bytes) (hr : off + n ≤ ret.length)
    (hi : i + n ≤ bytes.length) :
    packField bytes n off i ret =
      .ok (ret.take off ++ (bytes.drop i).take n ++ ret.drop (off + n)) := by
  induction n generalizing off i ret with
  | zero => simp [packField]
  | succ n ih =>
    rw [packField, getByte_ok' (by omega), Except.ok_bind, setByte_ok _ (by omega), Except.ok_bind,
      ih (off + 1) (i + 1) _ (by simp; omega) (by omega)]
    congr 1
    have e1 : (ret.set off bytes[i]).take (off + 1) = ret.take off ++ [bytes[i]] := by
      rw [List.take_add_one, List.take_set_of_le (Nat.le_refl _)]
      simp [show off < ret.length by omega]
    have e2 : (ret.set off bytes[i]).drop (off + 1 + n) = ret.drop (off + (n + 1)) := by
      rw [List.drop_set_of_lt (by omega)]; congr 1; omega
    have e3 : (bytes.drop i).take (n + 1) = bytes[i] :: (bytes.drop (i + 1)).take n := by
      rw [← List.getElem_cons_drop (show i < bytes.length by omega), List.take_succ_cons]
    rw [e1, e2, e3]
    simp

/-- The blocks that the fields contribute. -/
def Blocks : List FieldDesc → Builder → List Bytes → Prop
  | [], [], [] => True
  | f :: fs, v :: vs, k :: ks =>
    f.bytes v = .ok k ∧ k.length = width f.ty ∧ width f.ty ≠ 0 ∧ Blocks fs vs ks
  | _, _, _ => False

theorem Blocks.length {fs : List FieldDesc} {b : Builder} {ks : List Bytes} (h : Blocks fs b ks) :
    ks.flatten.length = total fs ∧ ks.length = fs.length ∧ b.length = fs.length := by
  induction fs generalizing b ks with
  | nil =>
    match b, ks, h with
    | [], [], _ => exact ⟨rfl, rfl, rfl⟩
  | cons f fs ih =>
    match b, ks, h with
    | v :: vs, k :: ks, ⟨_, h2, _, h4⟩ =>
      obtain ⟨a, b, c⟩ := ih h4
      rw [List.flatten_cons, List.length_append, h2, a, total_cons]
      simp [b, c]

theorem Blocks.payloadSize {fs : List FieldDesc} {b : Builder} {ks : List Bytes}
    (h : Blocks fs b ks) : fieldsSize fs = some (total fs) := by
  induction fs generalizing b ks with
  | nil => rfl
  | cons f fs ih =>
    match b, ks, h with
    | v :: vs, k :: ks, ⟨_, _, h3, h4⟩ =>
      rw [fieldsSize, size_some h3, ih h4, total_cons]
      rfl

/-- The fields go into the array one after the other. -/
theorem packFields_eq {fs : List FieldDesc} {b : Builder} {ks : List Bytes} (h : Blocks fs b ks)
    (off : Nat) (ret : Bytes) (hr : off + total fs ≤ ret.length) :
    packFields fs b off ret = .ok (ret.take off ++ ks.flatten ++ ret.drop (off + total fs)) := by
  induction fs generalizing b ks off ret with
  | nil =>
    match b, ks, h with
    | [], [], _ => simp [packFields, total_nil]
  | cons f fs ih =>
    match b, ks, h with
    | v :: vs, k :: ks, ⟨h1, h2, h3, h4⟩ =>
      rw [total_cons] at hr
      rw [packFields]
      simp only [size_some h3]
      rw [h1, Except.ok_bind, packField_eq _ _ _ _ _ (by omega) (by omega), Except.ok_bind,
        ih h4 _ _ (by simp; omega)]
      congr 1
      have e1 : (k.drop 0).take (width f.ty) = k := by rw [← h2]; simp
      have hl : (ret.take off ++ k).length = off + width f.ty := by simp; omega
      have e2 : (ret.take off ++ k ++ ret.drop (off + width f.ty)).take (off + width f.ty) =
          ret.take off ++ k := by rw [← hl, List.take_left']; rfl
      have e3 : (ret.take off ++ k ++ ret.drop (off + width f.ty)).drop
          (off + width f.ty + total fs) = ret.drop (off + total (f :: fs)) := by
        rw [← List.drop_drop, ← hl, List.drop_left, List.drop_drop, hl, total_cons]; congr 1; omega
      rw [e1, e2, e3]
      simp

theorem frame_length (c i : UInt8) (p : Bytes) : (frame c i p).length = p.length + 8 := by
  simp [frame, body]

/-- `into_packet_bytes` gives the frame of the concatenated blocks. -/
theorem intoPacketBytes_eq {d : PackDesc} (hb : d.hasBuilder = true) (h64 : total d.fields < 65536)
    {b : Builder} {ks : List Bytes} (h : Blocks d.fields b ks) :
    d.intoPacketBytes b = .ok (frame d.cls d.id ks.flatten) := by
  have hsz : d.packetPayloadSize = some (total d.fields) := h.payloadSize
  have hlen := h.length.1
  generalize hn : total d.fields = n at *
  unfold PackDesc.intoPacketBytes
  simp only [hsz]
  rw [if_neg (by simp [hb]; omega)]
  have hrep : List.replicate (n + 8) (0 : UInt8) =
      0 :: 0 :: 0 :: 0 :: 0 :: 0 :: List.replicate (n + 2) 0 := by
    simp [List.replicate_succ]
  rw [hrep, setByte_ok _ (by simp), Except.ok_bind, setByte_ok _ (by simp), Except.ok_bind,
    setByte_ok _ (by simp), Except.ok_bind, setByte_ok _ (by simp), Except.ok_bind,
    setByte_ok _ (by simp), Except.ok_bind, setByte_ok _ (by simp), Except.ok_bind]
  simp only [List.set_cons_zero, List.set_cons_succ]
  rw [packFields_eq h _ _ (by simp; omega), Except.ok_bind]
  simp only [List.take_succ_cons, List.take_zero, hn, List.cons_append, List.nil_append,
    show 6 + n = n + 6 by omega, List.drop_succ_cons, List.drop_replicate,
    show n + 2 - n = 2 by omega]
  generalize ks.flatten = p at hlen
  have hr2 : List.replicate 2 (0 : UInt8) = [0, 0] := rfl
  rw [hr2]
  have hs : sliceRange (SYNC_CHAR_1 :: SYNC_CHAR_2 :: d.cls :: d.id :: UInt8.ofNat n ::
      UInt8.ofNat (n / 256) :: (p ++ [0, 0])) 2 (n + 8 - 2) =
      .ok (body d.cls d.id p) := by
    unfold sliceRange
    rw [if_pos (by simp; omega)]
    congr 1
    simp only [List.drop_succ_cons, List.drop_zero, show n + 8 - 2 - 2 = n + 4 by omega,
      List.take_succ_cons, body, hlen]
    rw [List.take_left' hlen]
    congr 3
    rw [← UInt8.toNat_inj]; simp
  rw [hs, Except.ok_bind]
  simp only [ubxChecksum_eq]
  rw [setByte_ok _ (by simp; omega), Except.ok_bind, setByte_ok _ (by simp; omega)]
  congr 1
  have e1 : n + 8 - 2 = n + 6 := by omega
  have e2 : n + 8 - 1 = n + 7 := by omega
  rw [e1, e2]
  simp only [List.set_cons_succ, frame, body, List.cons_append, hlen]
  have hA : SYNC_CHAR_1 = 0xb5 := rfl
  have hB : SYNC_CHAR_2 = 0x62 := rfl
  have hC : UInt8.ofNat n = UInt8.ofNat (n % 256) := by rw [← UInt8.toNat_inj]; simp
  rw [hA, hB, hC]
  congr 6
  rw [List.set_append_right _ _ (by omega), List.set_append_right _ _ (by omega)]
  simp [hlen]

/-- Writing the fields is writing the blocks. -/
theorem writeFields_eq {W E : Type} (mw : MemWriter W E) {fs : List FieldDesc} {b : Builder}
    {ks : List Bytes} (h : Blocks fs b ks) (w : W) (ck : ChecksumCalc)
    (k : ChecksumCalc → W → R (Except E Unit × W)) (last : List Bytes)
    (hk : ∀ w, k (ck.update ks.flatten) w = writeAll mw.write last w) :
    (do
      match ← mw.writeFields fs b w ck with
      | (.error e, w) => return (.error e, w)
      | (.ok ck, w) => k ck w) = writeAll mw.write (ks ++ last) w := by
  induction fs generalizing b ks w ck with
  | nil =>
    match b, ks, h with
    | [], [], _ =>
      simp only [MemWriter.writeFields, Except.ok_bind, List.nil_append]
      exact hk w
  | cons f fs ih =>
    match b, ks, h with
    | v :: vs, kk :: ks, ⟨h1, h2, h3, h4⟩ =>
      simp only [MemWriter.writeFields, h1, Except.ok_bind, List.cons_append, writeAll]
      cases hw : mw.write w kk with
      | error e => rfl
      | ok x =>
        obtain ⟨r, w'⟩ := x
        cases r with
        | error e => rfl
        | ok u =>
          simp only [Except.ok_bind]
          exact ih h4 w' (ck.update kk) (fun w => by
            rw [checksumCalc_update_append, ← List.flatten_cons]; exact hk w)

/-- `create_packet` reserves once and then writes pieces whose concatenation is the frame. -/
theorem createPacket_eq {W E : Type} (mw : MemWriter W E) {d : PackDesc} (hb : d.hasBuilder = true)
    (h64 : total d.fields < 65536) {b : Builder} {ks : List Bytes} (h : Blocks d.fields b ks)
    (w : W) :
    ∃ pieces : List Bytes, pieces.flatten = frame d.cls d.id ks.flatten ∧
      d.createPacket mw b w =
        match mw.reserveAllocate w (total d.fields + 8) with
        | .error e => .error e
        | .ok (.error e, w) => .ok (.error e, w)
        | .ok (.ok (), w) => writeAll mw.write pieces w := by
  have hsz : d.packetPayloadSize = some (total d.fields) := h.payloadSize
  have hlen := h.length.1
  have hC : UInt8.ofNat (total d.fields) = UInt8.ofNat (total d.fields % 256) := by
    rw [← UInt8.toNat_inj]; simp
  let hdr : Bytes := [SYNC_CHAR_1, SYNC_CHAR_2, d.cls, d.id,
          UInt8.ofNat (total d.fields), UInt8.ofNat (total d.fields / 256)]
  refine ⟨hdr :: (ks ++ [[ckA (body d.cls d.id ks.flatten), ckB (body d.cls d.id ks.flatten)]]),
    ?_, ?_⟩
  · simp only [List.flatten_cons, List.flatten_append, List.flatten_nil, List.append_nil, hdr, hC]
    simp only [frame, body, hlen]
    rfl
  · unfold PackDesc.createPacket
    simp only [hsz]
    rw [if_neg (by simp [hb]; omega)]
    cases hr : mw.reserveAllocate w (total d.fields + 8) with
    | error e => rfl
    | ok x =>
      obtain ⟨r, w'⟩ := x
      cases r with
      | error e => rfl
      | ok u =>
        simp only [Except.ok_bind, writeAll]
        cases hw : mw.write w' hdr with
        | error e => rfl
        | ok x =>
          obtain ⟨r, w''⟩ := x
          cases r with
          | error e => rfl
          | ok u =>
            simp only [Except.ok_bind]
            refine writeFields_eq mw h w'' _ (fun ck w => mw.write w [ck.result.1, ck.result.2]) _ ?_
            intro w
            rw [checksumCalc_update_append]
            have hbody : List.drop 2 [SYNC_CHAR_1, SYNC_CHAR_2, d.cls, d.id,
                UInt8.ofNat (total d.fields), UInt8.ofNat (total d.fields / 256)] ++ ks.flatten =
                body d.cls d.id ks.flatten := by
              simp only [List.drop_succ_cons, List.drop_zero, body, hlen, hC]; rfl
            rw [hbody, checksumCalc_update_eq]
            simp only [ChecksumCalc.result, ChecksumCalc.default, writeAll]
            have z : ∀ x y : UInt8, 0 + y * 0 + x = x := by intro x y; grind
            have z' : ∀ x : UInt8, 0 + x = x := by intro x; grind
            rw [z, z']
            cases hl : mw.write w _ with
            | error e => rfl
            | ok x => obtain ⟨r, w3⟩ := x; cases r <;> rfl

end Ublox
