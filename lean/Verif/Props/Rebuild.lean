import Verif.Props.Build
import Verif.Props.Packet

/-!
# C53: read, modify, write
-/

namespace Ublox.Props

open Spec Gen

/-- The slot of the `i`-th field in a payload. -/
def slot (d : PackDesc) (i : Nat) (f : FieldDesc) (payload : Bytes) : Bytes :=
  (payload.drop (start d.fields i)).take (width f.ty)

/-- The value of the field can be handed back without loss.  For the mode word of CFG-PRT that is
the case if it has no bit set outside the three settings, and "no parity" in the form `100`.  For the
words of CFG-ITFM (C31): if the bits of the CW threshold and of the algorithm happen to be the same
as the lowest bits of the word; if no antenna setting and no reserved bit is set. -/
def Lossless (f : FieldDesc) (bytes : Bytes) : Prop :=
  match f.map with
  | some .itfmConfig =>
    field (leNat bytes) 4 5 = field (leNat bytes) 0 5 ∧
      field (leNat bytes) 9 22 = field (leNat bytes) 0 22
  | some .itfmConfig2 => leNat bytes = field (leNat bytes) 0 12 + field (leNat bytes) 14 1 * 2 ^ 14
  | some .uartMode =>
    leNat bytes = field (leNat bytes) 6 2 * 2 ^ 6 + field (leNat bytes) 9 3 * 2 ^ 9 +
      field (leNat bytes) 12 2 * 2 ^ 12 ∧ field (leNat bytes) 9 3 ≠ 5
  | _ => True

theorem uart_lossless {w : UInt32} {m : UartMode} (h : UartMode.from w = .ok m) :
    m.intoRaw = w ↔ w.toNat = field w.toNat 6 2 * 2 ^ 6 + field w.toNat 9 3 * 2 ^ 9 +
      field w.toNat 12 2 * 2 ^ 12 ∧ field w.toNat 9 3 ≠ 5 := by
  rw [← UInt32.toNat_inj, c30_uart_into]
  rw [c30_uart_from] at h
  revert h
  split
  · rename_i a b c ha hb hc
    intro h
    simp only [Except.ok.injEq] at h
    subst h
    have l1 : field w.toNat 6 2 < 4 := Nat.mod_lt _ (by decide)
    have l2 : field w.toNat 9 3 < 8 := Nat.mod_lt _ (by decide)
    have l3 : field w.toNat 12 2 < 4 := Nat.mod_lt _ (by decide)
    have e1 : ∀ n < 4, ∀ a, dataBitsOf n = some a → dataBitsCode a = n := by
      intro n hn a; revert n; cases a <;> decide
    have e2 : ∀ n < 8, ∀ a, parityOf n = some a → if n = 5 then parityCode a = 4 else
        parityCode a = n := by
      intro n hn a; revert n; cases a <;> decide
    have e3 : ∀ n < 4, ∀ a, stopBitsOf n = some a → stopBitsCode a = n := by
      intro n hn a; revert n; cases a <;> decide
    have e4 := e2 _ l2 _ hb
    simp only [e1 _ l1 _ ha, e3 _ l3 _ hc]
    by_cases h5 : field w.toNat 9 3 = 5
    · rw [if_pos h5] at e4
      rw [e4]
      refine ⟨fun hw => ?_, fun hw => absurd h5 hw.2⟩
      exfalso
      unfold field at *
      omega
    · rw [if_neg h5] at e4
      rw [e4]
      exact ⟨fun hw => ⟨hw.symm, h5⟩, fun hw => hw.1.symm⟩
  · intro h; cases h

/-- C31: exactly these words of `CfgItfmConfig` survive being read and written. -/
theorem c31_config_survives_iff (w : UInt32) : (CfgItfmConfig.from_ w).intoRaw = w ↔
    field w.toNat 4 5 = field w.toNat 0 5 ∧ field w.toNat 9 22 = field w.toNat 0 22 := by
  obtain ⟨h1, h2, h3, h4⟩ := c31_config_rmw_partial w
  constructor
  · intro h
    rw [h] at h3 h4
    exact ⟨h3, h4⟩
  · rintro ⟨k1, k2⟩
    apply UInt32.toNat_inj.mp
    have l1 := UInt32.toNat_lt w
    have l2 := UInt32.toNat_lt (CfgItfmConfig.from_ w).intoRaw
    generalize (CfgItfmConfig.from_ w).intoRaw.toNat = a at *
    generalize w.toNat = b at *
    have h5 : a / 2 ^ 31 % 2 = b / 2 ^ 31 % 2 := by
      unfold bit at h1
      rw [Bool.eq_iff_iff, beq_iff_eq, beq_iff_eq] at h1
      omega
    have dec : ∀ x : Nat, x < 2 ^ 32 → x = x % 16 + 16 * (x / 16 % 32) +
        512 * (x / 512 % 4194304) + 2147483648 * (x / 2147483648 % 2) := by
      intro x hx; omega
    simp only [field, Nat.reducePow, Nat.div_one] at h2 h3 h4 h5 k1 k2
    rw [dec a l2, dec b l1, h2, h3, h4, h5, k1, k2]

/-- C31: exactly these words of `CfgItfmConfig2` survive being read and written. -/
theorem c31_config2_survives_iff (w : UInt32) : (CfgItfmConfig2.from_ w).intoRaw = w ↔
    w.toNat = field w.toNat 0 12 + field w.toNat 14 1 * 2 ^ 14 := by
  obtain ⟨h1, h2, h3, h4⟩ := c31_config2_from w
  have hn := itfmConfig2_toNat (CfgItfmConfig2.from_ w)
  rw [h1, h2] at hn
  have hbit : (if bit w.toNat 14 = true then 1 else 0) = field w.toNat 14 1 := by
    unfold bit field
    rcases Nat.mod_two_eq_zero_or_one (w.toNat / 2 ^ 14) with h | h <;>
      rw [Nat.pow_one, h] <;> rfl
  rw [hbit] at hn
  rw [← UInt32.toNat_inj, hn]
  have l0 : field w.toNat 0 12 < 2 ^ 12 := Nat.mod_lt _ (by decide)
  have l1 : antennaCode (CfgItfmConfig2.from_ w).antenna < 2 ^ 12 := by
    cases (CfgItfmConfig2.from_ w).antenna <;> decide
  have l2 := Nat.or_lt_two_pow l0 l1
  constructor
  · intro h
    have h12 : field w.toNat 12 2 = 0 := by
      generalize (field w.toNat 0 12 ||| antennaCode (CfgItfmConfig2.from_ w).antenna) = x at *
      simp only [field, Nat.pow_zero, Nat.div_one] at *
      omega
    have ha := h3 (by omega)
    rw [ha, h12, Nat.or_zero] at h
    omega
  · intro h
    have h12 : field w.toNat 12 2 = 0 := by
      simp only [field, Nat.pow_zero, Nat.div_one] at *
      omega
    have ha := h3 (by omega)
    rw [ha, h12, Nat.or_zero]
    omega

/-- Handing back what an accessor returned gives the bytes that the accessor read, exactly in the
lossless case. -/
theorem bytes_of_convert {d : PackDesc} (hd : d ∈ allPackets) (hk : d.kind = .recvSend)
    {f : FieldDesc} (hf : f ∈ d.fields) {r : RawVal} {bs : Bytes} {v : Val}
    (hr : r.ofTy f.ty = true) (hden : Denotes r bs) (hc : f.convert r = .ok v) :
    f.bytes v = .ok bs ↔ Lossless f bs := by
  have hb : d.hasBuilder = true := by unfold PackDesc.hasBuilder; rw [hk]; rfl
  have ht := (build_mayFail' hd hk hf).1
  have hB := build_field hd hb hf ht
  have hwf := readable_wf d hd (by rw [hk]; decide)
  simp only [PackDesc.wf, Bool.and_eq_true, List.all_eq_true] at hwf
  have hw := hwf.1 f hf
  obtain ⟨ce, cf⟩ := conv_type hd hf
  rw [hden.bytes_unique]
  by_cases hs : f.scale = none
  · simp only [FieldDesc.wf, Bool.and_eq_true] at hw
    obtain ⟨-, hw⟩ := hw
    unfold buildB at hB
    rw [Bool.and_eq_true] at hB
    obtain ⟨-, hB⟩ := hB
    unfold FieldDesc.convert at hc
    rw [hs] at hc
    cases hm : f.map with
    | none =>
      rw [hm] at hc
      have : v = .raw r := by cases hc; rfl
      subst this
      unfold FieldDesc.bytes Lossless
      rw [hm]
      simp only [hr, if_true]
      exact iff_of_true rfl trivial
    | some c =>
      rw [hm] at hc hB hw
      simp only at hc
      have hc' : c.convert f.mayFail r = .ok v := by
        revert hc
        cases c.convert f.mayFail r with
        | error e => intro h; cases h
        | ok x => intro h; exact h
      clear hc
      unfold FieldDesc.bytes Lossless
      rw [hm, hs]
      simp only
      have hok : c.intoRaw none f.ty v = .ok r →
          ((do return (← c.intoRaw none f.ty v).toLeBytes : R Bytes) = .ok r.toLeBytes) := by
        intro h; rw [h]; rfl
      have hword : ∀ w w' : UInt32, r = .u32 w → c.intoRaw none f.ty v = .ok (.u32 w') →
          ((do return (← c.intoRaw none f.ty v).toLeBytes : R Bytes) = .ok r.toLeBytes ↔
            w' = w) := by
        rintro w w' rfl h
        rw [h]
        show Except.ok (RawVal.u32 w').toLeBytes = Except.ok (RawVal.u32 w).toLeBytes ↔ _
        rw [Except.ok.injEq]
        constructor
        · intro h
          have := congrArg leNat h
          simp only [RawVal.toLeBytes, u32ToLe_eq, leNat_natLe] at this
          rw [Nat.mod_eq_of_lt w.toNat_lt, Nat.mod_eq_of_lt w'.toNat_lt] at this
          exact UInt32.toNat_inj.mp this
        · rintro rfl; rfl
      have hle : leNat r.toLeBytes = leNat bs := by rw [← hden.bytes_unique]
      cases c <;> simp [hs] at hB
      · -- enum
        rename_i e
        have hty : f.ty = .u8 := by revert hB; cases f.ty <;> simp
        rw [hty] at hr hB hw
        cases r <;> simp [RawVal.ofTy] at hr
        rename_i x
        simp only [Bool.and_eq_true] at hw
        have key : ∃ y, v = .enum y ∧ y ∈ e.allVariants ∧ y.2 = x := by
          simp only [Conv.convert] at hc'
          have he := ce e hm
          by_cases hmf : f.mayFail = true
          · rw [if_pos hmf] at hw hc'
            simp only [Bool.and_eq_true, beq_iff_eq] at hw
            have hrest := (c27_from_exhaustive e he).2 hw.2.1
            rw [if_pos hw.2.1] at hc'
            cases hy : e.fromUnchecked x with
            | error p => rw [hy] at hc'; cases hc'
            | ok y =>
              rw [hy] at hc'
              have := (c28_closed_enums e he hrest).2.2.2.1 x y hy
              refine ⟨y, by cases hc'; rfl, ?_, this.2⟩
              unfold EnumDesc.allVariants; rw [if_neg (by simp [hrest])]; exact this.1
          · rw [if_neg hmf] at hw hc'
            simp only [Bool.and_eq_true, beq_iff_eq] at hw
            rw [if_pos hw.2.1] at hc'
            obtain ⟨y, h1, h2, h3⟩ := (c27_open_enums e he hw.2.2).1 x
            rw [h2] at hc'
            exact ⟨y, by cases hc'; rfl, h1, h3⟩
        obtain ⟨y, rfl, hy, rfl⟩ := key
        have : e.allVariants.contains y = true := by simpa using hy
        refine iff_of_true (hok ?_) trivial
        simp only [Conv.intoRaw, hB, this, Bool.and_self, if_true]
        rfl
      · -- flags
        rename_i g
        have hg := (c29_flags_keep_bits g (cf g hm)).2.1
        have hcase : (f.ty = .u8 ∧ g.nbits = 8 ∨ f.ty = .u16 ∧ g.nbits = 16 ∨
            f.ty = .u32 ∧ g.nbits = 32) ∧ g.intoRaw = true := by
          revert hB; cases f.ty <;> simp <;> grind
        obtain ⟨⟨hty, hn⟩ | ⟨hty, hn⟩ | ⟨hty, hn⟩, hi⟩ := hcase <;>
        · rw [hty] at hr
          cases r <;> simp [RawVal.ofTy] at hr
          rename_i x
          simp only [Conv.convert, RawVal.unsigned?, hn, if_true] at hc'
          have hx : g.fromBitsTruncate x.toNat = x.toNat := hg _ (by
            rw [hn]
            first | exact UInt8.toNat_lt x | exact UInt16.toNat_lt x | exact UInt32.toNat_lt x)
          rw [hx] at hc'
          split at hc'
          · cases hc'
            refine iff_of_true (hok ?_) trivial
            simp only [Conv.intoRaw, hi, hx, beq_self_eq_true, Bool.and_self, if_true,
              RawVal.ofUnsigned, hn]
            simp
          · cases hc'
      · -- mode
        have hty : f.ty = .u32 := by revert hB; cases f.ty <;> simp
        rw [hty] at hr
        cases r <;> simp [RawVal.ofTy] at hr
        rename_i w
        have hw : leNat bs = w.toNat := hden.2.symm
        rw [hle, hw]
        simp only [Conv.convert] at hc'
        cases hmode : UartMode.from w with
        | error p => rw [hmode] at hc'; cases hc'
        | ok m =>
          rw [hmode] at hc'
          cases hc'
          exact (hword w m.intoRaw rfl rfl).trans (uart_lossless hmode)
      · -- CFG-ITFM, first word
        have hty : f.ty = .u32 := by revert hB; cases f.ty <;> simp
        rw [hty] at hr
        cases r <;> simp [RawVal.ofTy] at hr
        rename_i w
        have hw : leNat bs = w.toNat := hden.2.symm
        rw [hle, hw]
        simp only [Conv.convert] at hc'
        cases hc'
        exact (hword w _ rfl rfl).trans (c31_config_survives_iff w)
      · -- CFG-ITFM, second word
        have hty : f.ty = .u32 := by revert hB; cases f.ty <;> simp
        rw [hty] at hr
        cases r <;> simp [RawVal.ofTy] at hr
        rename_i w
        have hw : leNat bs = w.toNat := hden.2.symm
        rw [hle, hw]
        simp only [Conv.convert] at hc'
        cases hc'
        exact (hword w _ rfl rfl).trans (c31_config2_survives_iff w)
      · revert hc'; unfold Conv.convert; split <;> simp_all
      · revert hc'; unfold Conv.convert; split <;> simp_all
  · obtain ⟨s, hs⟩ := Option.ne_none_iff_exists'.mp hs
    obtain ⟨v', h1, h2⟩ := c42_scaled_round_trip hd hk hf hs hr
    rw [hc] at h1
    cases h1
    refine iff_of_true h2 ?_
    obtain ⟨-, -, -, -, ⟨hm, -⟩ | ⟨hm, -⟩⟩ := scaled_field hd hb hf hs <;>
      (unfold Lossless; rw [hm]; trivial)

theorem blocks_nth {fs : List FieldDesc} {b : Builder} {ks : List Bytes} (h : Blocks fs b ks) :
    ks.length = fs.length ∧
    (∀ (i : Nat) (f : FieldDesc) (k : Bytes), fs[i]? = some f → ks[i]? = some k →
      k.length = width f.ty) ∧
    ∀ (i : Nat) (f : FieldDesc) (v : Val), fs[i]? = some f → b[i]? = some v →
      ∃ k, ks[i]? = some k ∧ f.bytes v = .ok k := by
  induction fs generalizing b ks with
  | nil =>
    match b, ks, h with
    | [], [], _ => simp
  | cons f fs ih =>
    match b, ks, h with
    | v :: b, k :: ks, h =>
      obtain ⟨h1, h2, -, h3⟩ := h
      obtain ⟨i1, i2, i3⟩ := ih h3
      refine ⟨by simp [i1], ?_, ?_⟩
      · intro i g m hg hm
        cases i with
        | zero => cases hg; cases hm; exact h2
        | succ i => exact i2 i g m hg hm
      · intro i g w hg hw
        cases i with
        | zero => cases hg; cases hw; exact ⟨k, rfl, h1⟩
        | succ i => exact i3 i g w hg hw

/-- **C53**, partial: a builder for a packet that was received, in which some fields have been
given the value that the accessor returned for the received payload and the others anything: the
frame has a payload of the same length in which the slots of these fields have the bytes that were
received, exactly if they are `Lossless`.  Missing: fields that are not, for which it is therefore
false (`c53_uart_reserved_bits_lost`, `c53_itfm_changed`). -/
theorem c53_kept_partial {cls id : UInt8} {payload p : Bytes} {d : PackDesc}
    (h : matchPacket cls id payload = .ok (.ok (.known d p))) (hk : d.kind = .recvSend)
    {b : Builder} {bytes : Bytes} (hb : d.intoPacketBytes b = .ok bytes) :
    ∃ q, bytes = frame cls id q ∧ q.length = p.length ∧
      ∀ (i : Nat) (f : FieldDesc) (v : Val), d.fields[i]? = some f → b[i]? = some v →
        d.get f.getName p = .ok v → (slot d i f q = slot d i f p ↔ Lossless f (slot d i f p)) := by
  obtain ⟨hd, hv⟩ := delivered h
  have hall := (recv_readable d hd).1
  have hbld : d.hasBuilder = true := by unfold PackDesc.hasBuilder; rw [hk]; rfl
  have ht : ∀ f ∈ d.fields, f.ty ≠ .tail := fun f hf => (build_mayFail' hall hk hf).1
  obtain ⟨ks, h1, -⟩ := buildable_blocks hall hbld ht (buildable_of_ok hall hbld ht hb)
  rw [intoPacketBytes_eq hbld (build_total hall hbld) h1] at hb
  obtain ⟨q0, k1, k2, -, -⟩ := c23_dispatch cls id payload
  rw [h] at k1
  simp only [Except.ok.injEq] at k1
  subst k1
  simp only [PacketRef.classAndMsgId, Prod.mk.injEq] at k2
  have hlen : p.length = total d.fields := by
    have hl := hv.1
    have e : (d.fields.any fun f => f.ty == .tail) = false := by
      rw [List.any_eq_false]; intro f hf; simpa using ht f hf
    unfold LenOk at hl
    rw [e] at hl
    have hs : d.fields.filterMap (·.sizeFn) = [] := by
      rw [List.filterMap_eq_nil_iff]
      intro f hf
      exact (build_mayFail' hall hk hf).2.1
    unfold required at hl
    rw [hs] at hl
    simpa using hl
  refine ⟨ks.flatten, ?_, by rw [h1.length.1, hlen], ?_⟩
  · rw [← k2.1, ← k2.2]; exact (Except.ok.inj hb).symm
  intro i f v hf hbi hget
  have hmem := List.mem_of_getElem? hf
  obtain ⟨hl1, hw, hby⟩ := blocks_nth h1
  obtain ⟨k, hki, hkb⟩ := hby i f v hf hbi
  have e1 : slot d i f ks.flatten = k := slot_of_blocks hl1 hw hf hki
  rw [e1]
  obtain ⟨r, r1, r2, r3, -⟩ := get_sized (recv_wf hd) (names_nodup d hall) hf (ht f hmem)
    (Nat.le_of_eq hlen.symm)
  rw [hget] at r3
  unfold fieldBytes at r2
  rw [if_neg (ht f hmem)] at r2
  have := bytes_of_convert hall hk hmem r1 r2 r3.symm
  rw [hkb, Except.ok.injEq] at this
  exact this

/-- **C53**, partial: a received packet whose accessor values are all put into a builder gives the
very frame that was received. -/
theorem c53_rebuild_partial {cls id : UInt8} {payload p : Bytes} {d : PackDesc}
    (h : matchPacket cls id payload = .ok (.ok (.known d p))) (hk : d.kind = .recvSend)
    {b : Builder} (hl : b.length = d.fields.length)
    (hb : ∀ (i : Nat) (f : FieldDesc) (v : Val), d.fields[i]? = some f → b[i]? = some v →
      d.get f.getName p = .ok v ∧ Lossless f (slot d i f p)) :
    d.intoPacketBytes b = .ok (frame cls id p) := by
  obtain ⟨hd, hv⟩ := delivered h
  have hall := (recv_readable d hd).1
  have hbld : d.hasBuilder = true := by unfold PackDesc.hasBuilder; rw [hk]; rfl
  have ht : ∀ f ∈ d.fields, f.ty ≠ .tail := fun f hf => (build_mayFail' hall hk hf).1
  obtain ⟨q0, k1, k2, -, -⟩ := c23_dispatch cls id payload
  rw [h] at k1
  simp only [Except.ok.injEq] at k1
  subst k1
  simp only [PacketRef.classAndMsgId, Prod.mk.injEq] at k2
  have hlen : p.length = total d.fields := by
    have hl := hv.1
    have e : (d.fields.any fun f => f.ty == .tail) = false := by
      rw [List.any_eq_false]; intro f hf; simpa using ht f hf
    unfold LenOk at hl
    rw [e] at hl
    have hs : d.fields.filterMap (·.sizeFn) = [] := by
      rw [List.filterMap_eq_nil_iff]
      intro f hf
      exact (build_mayFail' hall hk hf).2.1
    unfold required at hl
    rw [hs] at hl
    simpa using hl
  have htile := (c21_tiles hall p).2.2.1
  rw [List.take_of_length_le (Nat.le_of_eq hlen)] at htile
  have hwidth : ∀ f ∈ d.fields, width f.ty ≠ 0 := by
    intro f hf
    obtain ⟨i, hi⟩ := List.mem_iff_getElem?.mp hf
    exact fun h0 => ht f hf ((FieldDesc.wf_width (PackDesc.wf_field (recv_wf hd) hi)).mp h0)
  rw [c18_any_declaration (blocks := d.fields.zipIdx.map fun x => slot d x.2 x.1 p) hbld
    (build_total hall hbld) hwidth hl (by simp) ?_]
  · unfold slot
    rw [htile, k2.1, k2.2]
  · intro i f v k hf hv hki
    have hmem := List.mem_of_getElem? hf
    simp only [List.getElem?_map, List.getElem?_zipIdx, hf, Option.map_some, Nat.zero_add,
      Option.some.injEq] at hki
    subst hki
    obtain ⟨hget, hls⟩ := hb i f v hf hv
    obtain ⟨r, r1, r2, r3, -⟩ := get_sized (recv_wf hd) (names_nodup d hall) hf (ht f hmem)
      (Nat.le_of_eq hlen.symm)
    rw [hget] at r3
    unfold fieldBytes at r2
    rw [if_neg (ht f hmem)] at r2
    refine ⟨(bytes_of_convert hall hk hmem r1 r2 r3.symm).mpr hls, ?_⟩
    have := start_add_le_total hf
    unfold slot
    rw [List.length_take, List.length_drop]
    omega

/-- **C53** The condition is exact: a received packet that is rebuilt from its own values is sent as
it was received if and only if every field is `Lossless`. -/
theorem c53_rebuild_iff {cls id : UInt8} {payload p : Bytes} {d : PackDesc}
    (h : matchPacket cls id payload = .ok (.ok (.known d p))) (hk : d.kind = .recvSend)
    {b : Builder} (hl : b.length = d.fields.length)
    (hb : ∀ (i : Nat) (f : FieldDesc) (v : Val), d.fields[i]? = some f → b[i]? = some v →
      d.get f.getName p = .ok v) :
    d.intoPacketBytes b = .ok (frame cls id p) ↔
      ∀ (i : Nat) (f : FieldDesc), d.fields[i]? = some f → Lossless f (slot d i f p) := by
  constructor
  · intro hs i f hf
    obtain ⟨q, h1, h2, h3⟩ := c53_kept_partial h hk hs
    have hi : i < b.length := by rw [hl]; exact (List.getElem?_eq_some_iff.mp hf).1
    have hv := List.getElem?_eq_getElem hi
    have he : q = p := by
      unfold frame at h1
      simp only [List.cons.injEq, true_and] at h1
      have hb := List.append_inj_left h1 (by simp [body, h2])
      unfold body at hb
      simp only [h2, List.cons.injEq, true_and] at hb
      exact hb.symm
    exact (h3 i f b[i] hf hv (hb i f _ hf hv)).mp (by rw [he])
  · intro hs
    exact c53_rebuild_partial h hk hl fun i f v hf hv => ⟨hb i f v hf hv, hs i f hf⟩

/-- CFG-PRT as a UART at 38400 baud reports it. `mode` is the 32-bit mode word. -/
def uartPayload (m0 m1 : UInt8) : Bytes :=
  [1, 0, 0, 0, m0, m1, 0, 0, 0, 0x96, 0, 0, 7, 0, 3, 0, 0, 0, 0, 0]

/-- The values that the accessors of `cfgPrtUart_` return for `uartPayload 0xc0 0x08` (and for
`uartPayload 0xd0 0x08`). -/
def uartValues : Builder :=
  [.enum ("Uart1", 1), .raw (.u8 0), .raw (.u16 0),
    .uartMode ⟨.eight, .none, .one⟩, .raw (.u32 38400), .flags 7, .flags 3,
    .raw (.u16 0), .raw (.u16 0)]

/-- The hypotheses of both theorems hold for 8 bits, no parity, one stop bit. -/
example : matchPacket 0x06 0x00 (uartPayload 0xc0 0x08) =
      .ok (.ok (.known cfgPrtUart_ (uartPayload 0xc0 0x08))) ∧ cfgPrtUart_.kind = .recvSend ∧
    uartValues.length = cfgPrtUart_.fields.length ∧
    cfgPrtUart_.fields.map (fun f => cfgPrtUart_.get f.getName (uartPayload 0xc0 0x08)) =
      uartValues.map .ok ∧
    cfgPrtUart_.intoPacketBytes uartValues =
      .ok (frame 0x06 0x00 (uartPayload 0xc0 0x08)) := by decide +kernel

example : Lossless { name := "mode", ty := .u32, map := some .uartMode } [0xc0, 0x08, 0, 0] := by
  unfold Lossless; decide

/-- Some words of CFG-ITFM survive, others do not. -/
example : Lossless { name := "config", ty := .u32, map := some .itfmConfig } [0, 0, 0, 0x80] ∧
    ¬ Lossless { name := "config", ty := .u32, map := some .itfmConfig } [0xf3, 0xac, 0x62, 0x2d] ∧
    Lossless { name := "config2", ty := .u32, map := some .itfmConfig2 } [0x1e, 0x43, 0, 0] ∧
    ¬ Lossless { name := "config2", ty := .u32, map := some .itfmConfig2 } [0x1e, 0x63, 0, 0] := by
  unfold Lossless; decide

/-- **C53**, violated: the mode word `0x8d0` that receivers report (bit 4 is reserved and set)
differs after reading all fields and building the packet from them. -/
theorem c53_uart_reserved_bits_lost :
    matchPacket 0x06 0x00 (uartPayload 0xd0 0x08) =
      .ok (.ok (.known cfgPrtUart_ (uartPayload 0xd0 0x08))) ∧
    cfgPrtUart_.fields.map (fun f => cfgPrtUart_.get f.getName (uartPayload 0xd0 0x08)) =
      uartValues.map .ok ∧
    cfgPrtUart_.intoPacketBytes uartValues =
      .ok (frame 0x06 0x00 (uartPayload 0xc0 0x08)) ∧
    cfgPrtUart_.intoPacketBytes uartValues ≠
      .ok (frame 0x06 0x00 (uartPayload 0xd0 0x08)) := by decide +kernel

/-- **C53**, violated: CFG-ITFM with the word `0x2d62acf3` that the interface description gives
(broadband threshold 3, CW threshold 15, the prescribed algorithm bits) is rebuilt from its own
fields as `0x4559e733`, with other thresholds and other algorithm bits. -/
theorem c53_itfm_changed :
    matchPacket 0x06 0x39 [0xf3, 0xac, 0x62, 0x2d, 0x1e, 0x43, 0, 0] =
      .ok (.ok (.known cfgItfm_ [0xf3, 0xac, 0x62, 0x2d, 0x1e, 0x43, 0, 0])) ∧
    cfgItfm_.fields.map (fun f =>
        cfgItfm_.get f.getName [0xf3, 0xac, 0x62, 0x2d, 0x1e, 0x43, 0, 0]) =
      [.ok (.itfmConfig (CfgItfmConfig.from_ 0x2d62acf3)),
        .ok (.itfmConfig2 (CfgItfmConfig2.from_ 0x431e))] ∧
    cfgItfm_.intoPacketBytes
        [.itfmConfig (CfgItfmConfig.from_ 0x2d62acf3),
          .itfmConfig2 (CfgItfmConfig2.from_ 0x431e)] =
      .ok (frame 0x06 0x39 [0x33, 0xe7, 0x59, 0x45, 0x1e, 0x43, 0, 0]) := by decide +kernel

end Ublox.Props
