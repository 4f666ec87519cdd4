import Verif.Lemmas.Raw
import Verif.Lemmas.Types
import Verif.Spec.Cfg
import Verif.Model.GenCfgVal

/-! # Configuration values -/

namespace Ublox
open Spec

/-- Pairwise comparison of numbers. -/
def nodupB : List Nat → Bool
  | [] => true
  | a :: l => l.all (fun b => !Nat.beq a b) && nodupB l

theorem nodup_of_nodupB {l : List Nat} (h : nodupB l = true) : l.Nodup := by
  induction l with
  | nil => simp
  | cons a l ih =>
    simp only [nodupB, Bool.and_eq_true, List.all_eq_true, Bool.not_eq_true'] at h
    refine List.nodup_cons.mpr ⟨fun hm => ?_, ih h.2⟩
    have := h.1 a hm
    simp at this

theorem cfgKeys_nodupB : nodupB (Gen.cfgItems.map (·.key.toNat)) = true := by decide +kernel

theorem cfgKeys_nodup : (Gen.cfgItems.map (·.key.toNat)).Nodup := nodup_of_nodupB cfgKeys_nodupB

theorem cfgKeys_width : ∀ i ∈ Gen.cfgItems,
    i.size = 4 + cfgWidth i.ty ∧ keyWidth i.key.toNat = some (cfgWidth i.ty) := by decide +kernel

theorem cfgInfMask_keeps (b : UInt8) :
    UInt8.ofNat (Gen.cfgInfMask_.fromBitsTruncate b.toNat) = b := by
  rw [FlagsDesc.fromBitsTruncate_eq _ (by exact b.toNat_lt)]
  simp

theorem i16_nat (v : Int16) : (v.toInt % 65536).toNat = v.toUInt16.toNat := by
  have h := signedOf_i16 v
  have l := v.toUInt16.toNat_lt
  rw [h]; unfold signedOf
  split <;> omega

/-- The value bytes of the model are the specified ones. -/
theorem CfgValue.bytes_eq (v : CfgValue) : v.bytes = natLe (cfgWidth v.ty) (cfgNat v) := by
  cases v with
  | bool b => cases b <;> rfl
  | u8 v => simp [CfgValue.bytes, cfgNat, CfgValue.ty, cfgWidth, natLe]
  | u16 v => exact u16ToLe_eq v
  | i16 v =>
    show u16ToLe v.toUInt16 = natLe 2 (v.toInt % 65536).toNat
    rw [i16_nat, u16ToLe_eq]
  | u32 v => exact u32ToLe_eq v
  | u64 v => exact u64ToLe_eq v
  | cfgInfMask v => simp [CfgValue.bytes, cfgNat, CfgValue.ty, cfgWidth, natLe]
  | dataBits v => cases v <;> rfl
  | parity v => cases v <;> rfl
  | stopBits v => cases v <;> rfl
  | alignment v => cases v <;> rfl
  | tpPulse v => cases v <;> rfl
  | tpPulseLength v => cases v <;> rfl

theorem CfgValue.bytes_length (v : CfgValue) : v.bytes.length = cfgWidth v.ty := by
  rw [v.bytes_eq, natLe_length]

theorem cfgKv_length (v : CfgVal) : (cfgKv v).length = 4 + cfgWidth v.item.ty := by
  simp [cfgKv, natLe_length]

theorem CfgVal.intoCfgKvBytes_eq {v : CfgVal} (h : IsCfgVal Gen.cfgItems v) :
    v.intoCfgKvBytes = .ok (cfgKv v) := by
  have e : u32ToLe v.item.key ++ v.value.bytes = cfgKv v := by
    rw [u32ToLe_eq, v.value.bytes_eq, h.2]; rfl
  unfold CfgVal.intoCfgKvBytes
  simp only [e]
  rw [if_pos]
  rw [cfgKv_length, (cfgKeys_width _ h.1).1]

/-- Decoding the value bytes. -/
theorem CfgTy.fromCfgVBytes_eq (v : CfgValue) (rest : Bytes) :
    v.ty.fromCfgVBytes (v.bytes ++ rest) = .ok v := by
  cases v with
  | bool b => cases b <;> rfl
  | u8 v => rfl
  | u16 v =>
    show Except.ok (CfgValue.u16 (u16FromLe v.toUInt8 (v >>> 8).toUInt8)) = _
    rw [u16FromLe_natLe v _ _ rfl]
  | i16 v =>
    show Except.ok (CfgValue.i16 (u16FromLe v.toUInt16.toUInt8 (v.toUInt16 >>> 8).toUInt8).toInt16) = _
    rw [u16FromLe_natLe v.toUInt16 _ _ rfl]; simp
  | u32 v =>
    show Except.ok (CfgValue.u32 (u32FromLe _ _ _ _)) = _
    rw [u32FromLe_natLe v _ _ _ _ rfl]
  | u64 v =>
    show Except.ok (CfgValue.u64 (u64FromLe _ _ _ _ _ _ _ _)) = _
    rw [u64FromLe_natLe v _ _ _ _ _ _ _ _ rfl]
  | cfgInfMask v =>
    show Except.ok (CfgValue.cfgInfMask (UInt8.ofNat (Gen.cfgInfMask_.fromBitsTruncate v.toNat))) = _
    rw [cfgInfMask_keeps]
  | dataBits v => cases v <;> rfl
  | parity v => cases v <;> rfl
  | stopBits v => cases v <;> rfl
  | alignment v => cases v <;> rfl
  | tpPulse v => cases v <;> rfl
  | tpPulseLength v => cases v <;> rfl

theorem find?_key {items : List CfgItem} (hn : (items.map (·.key.toNat)).Nodup) {i : CfgItem}
    (hi : i ∈ items) : (items.find? fun j => j.key == i.key) = some i := by
  induction items with
  | nil => simp at hi
  | cons a l ih =>
    simp only [List.map_cons, List.nodup_cons] at hn
    rcases List.mem_cons.mp hi with rfl | hm
    · simp
    · have : a.key ≠ i.key := fun hc => hn.1 (List.mem_map.mpr ⟨i, hm, by rw [hc]⟩)
      rw [List.find?_cons_of_neg (by simpa using this)]
      exact ih hn.2 hm

theorem CfgVal.parse_eq {v : CfgVal} (h : IsCfgVal Gen.cfgItems v) (rest : Bytes) :
    CfgVal.parse Gen.cfgItems (cfgKv v ++ rest) = .ok v := by
  have e : cfgKv v = u32ToLe v.item.key ++ v.value.bytes := by
    rw [u32ToLe_eq, v.value.bytes_eq, h.2]; rfl
  rw [e, List.append_assoc]
  generalize hr : v.value.bytes ++ rest = r
  have hf := find?_key cfgKeys_nodup h.1
  have hs : sliceFrom (u32ToLe v.item.key ++ r) 4 = .ok r := by
    unfold sliceFrom
    rw [if_pos (by simp [u32ToLe])]
    rfl
  have : CfgVal.parse Gen.cfgItems (u32ToLe v.item.key ++ r) =
      (match Gen.cfgItems.find? fun i => i.key == u32FromLe v.item.key.toUInt8
          (v.item.key >>> 8).toUInt8 (v.item.key >>> 16).toUInt8 (v.item.key >>> 24).toUInt8 with
      | some i => do return ⟨i, ← i.ty.fromCfgVBytes (← sliceFrom (u32ToLe v.item.key ++ r) 4)⟩
      | none => .error .explicit) := rfl
  rw [this, u32FromLe_natLe v.item.key _ _ _ _ rfl, hf, hs]
  show (do return (⟨v.item, ← v.item.ty.fromCfgVBytes r⟩ : CfgVal)) = _
  rw [← h.2, ← hr, CfgTy.fromCfgVBytes_eq]
  rfl

theorem CfgVal.len_eq {v : CfgVal} (h : IsCfgVal Gen.cfgItems v) : v.len = (cfgKv v).length := by
  rw [cfgKv_length]; exact (cfgKeys_width _ h.1).1

theorem CfgVal.extendTo_eq {v : CfgVal} (h : IsCfgVal Gen.cfgItems v) (buf : Bytes) :
    v.extendTo buf = .ok (buf ++ cfgKv v, (cfgKv v).length) := by
  unfold CfgVal.extendTo; rw [CfgVal.intoCfgKvBytes_eq h]; rfl

theorem CfgVal.writeTo_eq {v : CfgVal} (h : IsCfgVal Gen.cfgItems v) (buf : Bytes) :
    v.writeTo buf = if (cfgKv v).length ≤ buf.length
      then .ok (cfgKv v ++ buf.drop (cfgKv v).length, (cfgKv v).length) else .error .slice := by
  unfold CfgVal.writeTo; rw [CfgVal.intoCfgKvBytes_eq h]; rfl

/-! ## `CfgValIter` -/

theorem cfgKvs_cons (v : CfgVal) (vs : List CfgVal) : cfgKvs (v :: vs) = cfgKv v ++ cfgKvs vs := rfl

theorem CfgValIter.writeAll_eq {M : Nat} {vs : List CfgVal} (h : ∀ v ∈ vs, IsCfgVal Gen.cfgItems v)
    (pre post : Bytes) (hM : pre.length + post.length ≤ M) :
    CfgValIter.writeAll M vs (pre ++ post) pre.length =
      if (cfgKvs vs).length ≤ post.length
      then .ok (pre ++ cfgKvs vs ++ post.drop (cfgKvs vs).length, pre.length + (cfgKvs vs).length)
      else .error .slice := by
  induction vs generalizing pre post with
  | nil => simp [CfgValIter.writeAll, cfgKvs]
  | cons v vs ih =>
    have hv := h v (by simp)
    unfold CfgValIter.writeAll
    have hs : sliceFrom (pre ++ post) pre.length = .ok post := by
      unfold sliceFrom; rw [if_pos (by simp)]; simp
    rw [hs]
    simp only [Except.bind, bind]
    rw [CfgVal.writeTo_eq hv]
    by_cases hl : (cfgKv v).length ≤ post.length
    · rw [if_pos hl]
      simp only
      have hu : uadd M pre.length (cfgKv v).length = .ok (pre.length + (cfgKv v).length) := by
        unfold uadd; rw [if_pos (by omega)]
      rw [hu]
      simp only
      have e1 : List.take pre.length (pre ++ post) ++ (cfgKv v ++ List.drop (cfgKv v).length post)
          = (pre ++ cfgKv v) ++ List.drop (cfgKv v).length post := by simp
      have e2 : pre.length + (cfgKv v).length = (pre ++ cfgKv v).length := by simp
      rw [e1, e2, ih (fun w hw => h w (by simp [hw])) _ _ (by simp; omega)]
      rw [cfgKvs_cons]
      by_cases hl2 : (cfgKvs vs).length ≤ (List.drop (cfgKv v).length post).length
      · rw [if_pos hl2, if_pos (by simp at hl2 ⊢; omega)]
        simp [List.append_assoc, Nat.add_assoc]
      · rw [if_neg hl2, if_neg (by simp at hl2 ⊢; omega)]
    · rw [if_neg hl, if_neg (by rw [cfgKvs_cons]; simp; omega)]

theorem CfgValIter.next_eq {M : Nat} {v : CfgVal} (h : IsCfgVal Gen.cfgItems v) (pre post : Bytes)
    (hM : pre.length + (cfgKv v).length + post.length ≤ M) :
    CfgValIter.next M Gen.cfgItems ⟨pre ++ (cfgKv v ++ post), pre.length⟩ =
      .ok (some v, ⟨pre ++ (cfgKv v ++ post), pre.length + (cfgKv v).length⟩) := by
  have hpos : 0 < (cfgKv v).length := by rw [cfgKv_length]; omega
  unfold CfgValIter.next
  have hs : sliceFrom (pre ++ (cfgKv v ++ post)) pre.length = .ok (cfgKv v ++ post) := by
    unfold sliceFrom; rw [if_pos (by simp)]; simp
  have hu : uadd M pre.length (cfgKv v).length = .ok (pre.length + (cfgKv v).length) := by
    unfold uadd; rw [if_pos (by omega)]
  simp only
  rw [if_pos (by simp; omega), hs]
  simp only [Except.bind, bind]
  rw [CfgVal.parse_eq h]
  simp only
  rw [CfgVal.len_eq h, hu]
  rfl

theorem CfgValIter.new_eq {M : Nat} {vs : List CfgVal} (h : ∀ v ∈ vs, IsCfgVal Gen.cfgItems v)
    (buf : Bytes) (hM : buf.length ≤ M) (hb : (cfgKvs vs).length ≤ buf.length) :
    CfgValIter.new M buf vs = .ok ⟨cfgKvs vs, 0⟩ := by
  unfold CfgValIter.new
  have := CfgValIter.writeAll_eq h [] buf (by simpa using hM)
  simp only [List.nil_append, List.length_nil] at this
  rw [this, if_pos hb]
  simp only [Except.bind, bind, Nat.zero_add]
  have hs : sliceRange (cfgKvs vs ++ List.drop (cfgKvs vs).length buf) 0 (cfgKvs vs).length
      = .ok (cfgKvs vs) := by
    unfold sliceRange
    rw [if_pos (by simp)]
    simp
  rw [hs]
  rfl

theorem CfgValIter.next_end {M : Nat} (data : Bytes) :
    CfgValIter.next M Gen.cfgItems ⟨data, data.length⟩ = .ok (none, ⟨data, data.length⟩) := by
  unfold CfgValIter.next; rw [if_neg (by simp)]; rfl

theorem CfgValIter.iterate_eq {M : Nat} {vs : List CfgVal} (h : ∀ v ∈ vs, IsCfgVal Gen.cfgItems v)
    (pre : Bytes) (k : Nat) (hM : pre.length + (cfgKvs vs).length ≤ M) :
    iterate (CfgValIter.next M Gen.cfgItems) (vs.length + k) ⟨pre ++ cfgKvs vs, pre.length⟩ =
      .ok (vs.map some ++ List.replicate k none, ⟨pre ++ cfgKvs vs, (pre ++ cfgKvs vs).length⟩) := by
  induction vs generalizing pre with
  | nil =>
    have e : (⟨pre ++ cfgKvs [], pre.length⟩ : CfgValIter) = ⟨pre, pre.length⟩ := by simp [cfgKvs]
    have e' : (⟨pre ++ cfgKvs [], (pre ++ cfgKvs []).length⟩ : CfgValIter) = ⟨pre, pre.length⟩ := by
      simp [cfgKvs]
    rw [e, e']
    simp only [List.length_nil, Nat.zero_add, List.map_nil, List.nil_append]
    induction k with
    | zero => rfl
    | succ k ih =>
      unfold iterate
      rw [CfgValIter.next_end]
      simp only [Except.bind, bind]
      rw [ih]
      rfl
  | cons v vs ih =>
    rw [cfgKvs_cons] at hM ⊢
    rw [List.length_append] at hM
    have hv := h v (by simp)
    rw [show (v :: vs).length + k = (vs.length + k) + 1 by simp; omega]
    unfold iterate
    rw [CfgValIter.next_eq hv pre _ (by omega)]
    simp only [Except.bind, bind]
    have e1 : pre ++ (cfgKv v ++ cfgKvs vs) = (pre ++ cfgKv v) ++ cfgKvs vs := by simp
    have e2 : pre.length + (cfgKv v).length = (pre ++ cfgKv v).length := by simp
    rw [e1, e2, ih (fun w hw => h w (by simp [hw])) _ (by simp; omega)]
    rfl

theorem nodup_of_map {α β : Type} (f : α → β) {l : List α} (h : (l.map f).Nodup) : l.Nodup := by
  induction l with
  | nil => simp
  | cons a l ih =>
    simp only [List.map_cons, List.nodup_cons] at h
    exact List.nodup_cons.mpr ⟨fun hm => h.1 (List.mem_map.mpr ⟨a, hm, rfl⟩), ih h.2⟩

theorem getByte_some {buf : Bytes} {i : Nat} {b : UInt8} (h : getByte buf i = .ok b) :
    buf[i]? = some b := by
  unfold getByte at h
  split at h <;> simp_all

theorem bind_ok {α β : Type} {x : R α} {f : α → R β} {b : β} (h : (x >>= f) = .ok b) :
    ∃ a, x = .ok a ∧ f a = .ok b := by
  cases x with
  | error e => simp [bind, Except.bind] at h
  | ok a => exact ⟨a, rfl, h⟩

theorem prefix_one {buf : Bytes} {a : UInt8} (h : buf[0]? = some a) : [a] <+: buf := by
  rcases buf with _ | ⟨x, buf⟩ <;> simp_all

theorem prefix_two {buf : Bytes} {a b : UInt8} (h : buf[0]? = some a) (h1 : buf[1]? = some b) :
    [a, b] <+: buf := by
  rcases buf with _ | ⟨x, _ | ⟨y, buf⟩⟩ <;> simp_all

theorem prefix_four {buf : Bytes} {a b c d : UInt8} (h : buf[0]? = some a) (h1 : buf[1]? = some b)
    (h2 : buf[2]? = some c) (h3 : buf[3]? = some d) : [a, b, c, d] <+: buf := by
  rcases buf with _ | ⟨x, _ | ⟨y, _ | ⟨z, _ | ⟨w, buf⟩⟩⟩⟩ <;> simp_all

theorem prefix_eight {buf : Bytes} {a b c d e f g i : UInt8} (h : buf[0]? = some a)
    (h1 : buf[1]? = some b) (h2 : buf[2]? = some c) (h3 : buf[3]? = some d) (h4 : buf[4]? = some e)
    (h5 : buf[5]? = some f) (h6 : buf[6]? = some g) (h7 : buf[7]? = some i) :
    [a, b, c, d, e, f, g, i] <+: buf := by
  obtain ⟨r, hr⟩ := prefix_four h h1 h2 h3
  subst hr
  simp only [List.cons_append, List.nil_append, List.getElem?_cons_succ] at h4 h5 h6 h7
  obtain ⟨r', hr'⟩ := prefix_four h4 h5 h6 h7
  subst hr'
  exact ⟨r', rfl⟩

/-- Anything the value decoder returns has the type asked for and its bytes start the input. -/
theorem CfgTy.fromCfgVBytes_sound {ty : CfgTy} {buf : Bytes} {v : CfgValue}
    (h : ty.fromCfgVBytes buf = .ok v) : v.ty = ty ∧ v.bytes <+: buf := by
  cases ty with
  | u16 =>
    obtain ⟨a, ha, h⟩ := bind_ok h
    obtain ⟨b, hb, h⟩ := bind_ok h
    injection h with h; subst h
    refine ⟨rfl, ?_⟩
    show u16ToLe (u16FromLe a b) <+: buf
    rw [u16ToLe_fromLe]
    exact prefix_two (getByte_some ha) (getByte_some hb)
  | i16 =>
    obtain ⟨a, ha, h⟩ := bind_ok h
    obtain ⟨b, hb, h⟩ := bind_ok h
    injection h with h; subst h
    refine ⟨rfl, ?_⟩
    show u16ToLe (u16FromLe a b).toInt16.toUInt16 <+: buf
    rw [UInt16.toUInt16_toInt16, u16ToLe_fromLe]
    exact prefix_two (getByte_some ha) (getByte_some hb)
  | u32 =>
    obtain ⟨a, ha, h⟩ := bind_ok h
    obtain ⟨b, hb, h⟩ := bind_ok h
    obtain ⟨c, hc, h⟩ := bind_ok h
    obtain ⟨d, hd, h⟩ := bind_ok h
    injection h with h; subst h
    refine ⟨rfl, ?_⟩
    show u32ToLe (u32FromLe a b c d) <+: buf
    rw [u32ToLe_fromLe]
    exact prefix_four (getByte_some ha) (getByte_some hb) (getByte_some hc) (getByte_some hd)
  | u64 =>
    obtain ⟨a, ha, h⟩ := bind_ok h
    obtain ⟨b, hb, h⟩ := bind_ok h
    obtain ⟨c, hc, h⟩ := bind_ok h
    obtain ⟨d, hd, h⟩ := bind_ok h
    obtain ⟨a', ha', h⟩ := bind_ok h
    obtain ⟨b', hb', h⟩ := bind_ok h
    obtain ⟨c', hc', h⟩ := bind_ok h
    obtain ⟨d', hd', h⟩ := bind_ok h
    injection h with h; subst h
    refine ⟨rfl, ?_⟩
    show u64ToLe (u64FromLe a b c d a' b' c' d') <+: buf
    rw [u64ToLe_fromLe]
    exact prefix_eight (getByte_some ha) (getByte_some hb) (getByte_some hc) (getByte_some hd)
      (getByte_some ha') (getByte_some hb') (getByte_some hc') (getByte_some hd')
  | u8 =>
    obtain ⟨a, ha, h⟩ := bind_ok h
    injection h with h; subst h
    exact ⟨rfl, prefix_one (getByte_some ha)⟩
  | cfgInfMask =>
    obtain ⟨a, ha, h⟩ := bind_ok h
    injection h with h; subst h
    rw [cfgInfMask_keeps]
    exact ⟨rfl, prefix_one (getByte_some ha)⟩
  | _ =>
    obtain ⟨a, ha, h⟩ := bind_ok h
    have hp := prefix_one (getByte_some ha)
    simp only [pure, Except.pure] at h
    repeat' split at h
    all_goals first
      | (injection h with h; subst h; subst a; exact ⟨rfl, hp⟩)
      | cases h

theorem CfgVal.parse_sound {buf : Bytes} {v : CfgVal} (h : CfgVal.parse Gen.cfgItems buf = .ok v) :
    IsCfgVal Gen.cfgItems v ∧ cfgKv v <+: buf := by
  unfold CfgVal.parse at h
  obtain ⟨a, ha, h⟩ := bind_ok h
  obtain ⟨b, hb, h⟩ := bind_ok h
  obtain ⟨c, hc, h⟩ := bind_ok h
  obtain ⟨d, hd, h⟩ := bind_ok h
  simp only at h
  split at h
  · rename_i i hi
    obtain ⟨r, hr, h⟩ := bind_ok h
    obtain ⟨w, hw, h⟩ := bind_ok h
    injection h with h; subst h
    obtain ⟨ht, r', hr'⟩ := CfgTy.fromCfgVBytes_sound hw
    have hk := List.find?_some hi
    simp only [beq_iff_eq] at hk
    refine ⟨⟨List.mem_of_find?_eq_some hi, ht⟩, ?_⟩
    obtain ⟨q, hq⟩ := prefix_four (getByte_some ha) (getByte_some hb) (getByte_some hc) (getByte_some hd)
    subst hq
    have : q = r := by
      unfold sliceFrom at hr
      rw [if_pos (by simp)] at hr
      injection hr
    subst this
    have e : cfgKv ⟨i, w⟩ = u32ToLe i.key ++ w.bytes := by
      rw [u32ToLe_eq, w.bytes_eq, ht]; rfl
    rw [e, hk, u32ToLe_fromLe, ← hr', ← List.append_assoc]
    exact List.prefix_append _ _
  · cases h

end Ublox
