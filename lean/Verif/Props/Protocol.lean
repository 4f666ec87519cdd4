import Verif.Spec.Protocol
import Verif.Props.Rebuild
import Verif.Props.Reading

/-!
# C57: messages are read and written as the interface description says
-/

namespace Ublox.Props

open Spec Gen Spec.Protocol

/-! ## What it means for an accessor to follow the description -/

/-- The value stands for the number `n`, multiplied with the factor `q`: exactly for integers, up to
the rounding of one or two operations for floats. -/
def Shows (v : Val) (n : Int) (q : Rat) : Prop :=
  (∃ r, v = .raw r ∧ intOf r = some n ∧ q = 1) ∨
  (∃ x, v = .f64 x ∧ Approx 51 x (n * q) |n * q|) ∨
  (∃ x, v = .f32 x ∧ Approx 22 x (n * q) |n * q|)

/-- The number behind an enumeration value or a set of flags. -/
def codeOf : Val → Option Int
  | .enum x => some x.2.toNat
  | .flags b => some b
  | .wrapped r => intOf r
  | _ => none

/-- The bit pattern of a float. -/
def patternOf : RawVal → Option Nat
  | .f32 b => some b.toNat
  | .f64 b => some b.toNat
  | _ => none

/-- The accessors of the field return what is in the payload at the place that the interface
description gives.  A field with a code has either only its number or a decoded value and the number
as `.._raw`. -/
def Reads (d : PackDesc) (e : Field) (payload : Bytes) : Prop :=
  let bs := (payload.drop e.offset).take e.ty.size
  bs.length = e.ty.size ∧
  match e.kind with
  | .number q => ∃ v, d.get e.accessor payload = .ok v ∧ Shows v (e.ty.number bs) q
  | .code =>
    (∃ r, (d.getRaw e.accessor payload = .ok r ∨ d.get e.accessor payload = .ok (.raw r)) ∧
      intOf r = some (e.ty.number bs)) ∧
    ∀ v n, d.get e.accessor payload = .ok v → codeOf v = some n → n = e.ty.number bs
  | .ieee => ∃ r, d.get e.accessor payload = .ok (.raw r) ∧ patternOf r = some (leNat bs)
  | .array => d.getRaw e.accessor payload = .ok (.bytes bs) ∨
      d.get e.accessor payload = .ok (.raw (.bytes bs))

/-! ## The declarations against the description -/

/-- The raw type for a number format. -/
def rawTy : Ty → RawTy
  | .U1 => .u8 | .X1 => .u8 | .I1 => .i8
  | .U2 => .u16 | .X2 => .u16 | .I2 => .i16
  | .U4 => .u32 | .X4 => .u32 | .I4 => .i32
  | .R4 => .f32 | .R8 => .f64
  | .A n => .bytes n

/-- The field declared as number `i` is the one of the description. -/
def sameField (d : PackDesc) (e : Field) (f : FieldDesc) (i : Nat) : Bool :=
  f.getName == e.accessor && start d.fields i == e.offset && f.ty == rawTy e.ty &&
  match e.kind with
  | .number q =>
    if f.map = some .f64 ∨ f.map = some .f32 then f.scale.getD 1 == q && (intRange f.ty).isSome
    else f.map == none && q == 1 && (intRange f.ty).isSome
  | .code => f.map != some .f64 && f.map != some .f32 && f.scale == none && (intRange f.ty).isSome
  | .ieee => f.map == none && (e.ty == .R4 || e.ty == .R8)
  | .array => f.ty == .bytes e.ty.size

/-- The packet has such a field. -/
def declares (d : PackDesc) (e : Field) : Bool :=
  d.fields.zipIdx.any fun x => sameField d e x.1 x.2

/-- The declared length is the one of the description. -/
def sameLen (d : PackDesc) : Len → Bool
  | .fixed n => total d.fields == n && d.fields.all (fun f => f.ty != .tail && f.sizeFn == none)
  | .blocks base size => total d.fields == base &&
      d.fields.all (fun f => f.sizeFn == none) &&
      (size == 1 && d.fields.any (fun f => f.ty == .tail) ||
        d.fields.zipIdx.any fun x => x.1.ty == .tail && start d.fields x.2 == base && x.1.mayFail &&
          match x.1.map with
          | some (.iter k) => blockSize k == size
          | _ => false)
  | .open base => total d.fields == base && d.fields.any fun f => f.ty == .tail

/-- The fields where the crate departs from the description, see `c57_departures`. -/
def departures : List (String × String) :=
  [("NavPvt", "ground_speed"), ("NavVelECEF", "ecef_vz"), ("NavHpPosLlh", "height_hp_meters"),
    ("TimSvin", "mean_v")] ++
  (["alpha0", "alpha1", "alpha2", "alpha3", "beta0", "beta1", "beta2", "beta3"].map
    fun a => ("MgaGpsIono", a)) ++
  (["tgd", "toc", "af2", "afl", "af0", "crs", "delta_n", "m0", "cuc", "cus", "e", "sqrt_a", "toe",
    "cic", "omega0", "cis", "crc", "i0", "omega", "omega_dot", "idot"].map
    fun a => ("MgaGpsEPH", a))

/-- The whole comparison. -/
theorem interface_table : (interface.all fun m => allPackets.all fun d => d.name != m.packet ||
    d.cls == m.cls && d.id == m.id && sameLen d m.len &&
    m.fields.all fun e => declares d e != departures.contains (m.packet, e.accessor)) = true := by
  decide +kernel

theorem interface_entry {m : Message} (hm : m ∈ interface) {d : PackDesc} (hd : d ∈ allPackets)
    (hn : d.name = m.packet) : d.cls = m.cls ∧ d.id = m.id ∧ sameLen d m.len = true ∧
    ∀ e ∈ m.fields, (m.packet, e.accessor) ∉ departures → declares d e = true := by
  have h := List.all_eq_true.mp (List.all_eq_true.mp interface_table m hm) d hd
  rw [hn] at h
  simp only [bne_self_eq_false, Bool.false_or, Bool.and_eq_true, beq_iff_eq, List.all_eq_true,
    bne_iff_ne, ne_eq] at h
  obtain ⟨⟨⟨h1, h2⟩, h3⟩, h4⟩ := h
  refine ⟨h1, h2, h3, fun e he hx => ?_⟩
  have := h4 e he
  rw [show departures.contains (m.packet, e.accessor) = false by simpa using hx] at this
  simpa using this

theorem declares_field {d : PackDesc} {e : Field} (h : declares d e = true) :
    ∃ i f, d.fields[i]? = some f ∧ sameField d e f i = true := by
  unfold declares at h
  rw [List.any_eq_true] at h
  obtain ⟨⟨f, i⟩, h1, h2⟩ := h
  exact ⟨i, f, List.mem_zipIdx_iff_getElem?.mp h1, h2⟩

theorem width_rawTy (t : Ty) : width (rawTy t) = t.size := by cases t <;> rfl

theorem rawTy_ne_tail (t : Ty) : rawTy t ≠ .tail := by cases t <;> simp [rawTy]

/-- The number of a raw value is the number that the description sees in its bytes. -/
theorem number_of_denotes {t : Ty} {r : RawVal} {bs : Bytes} (hr : r.ofTy (rawTy t) = true)
    (hd : Denotes r bs) {n : Int} (hn : intOf r = some n) : n = t.number bs := by
  cases t <;> cases r <;> simp [rawTy, RawVal.ofTy] at hr <;>
    simp only [intOf, Option.some.injEq, reduceCtorEq] at hn <;> subst hn <;>
    simp only [Denotes] at hd <;> simp only [Ty.number, hd.2]

/-- A decoded code is the number it was decoded from. -/
theorem code_of_convert {d : PackDesc} (hd : d ∈ allPackets) (hk : d.kind ≠ .send) {f : FieldDesc}
    (hf : f ∈ d.fields) {r : RawVal} (hr : r.ofTy f.ty = true) (hs : f.scale = none) {v : Val}
    (hc : f.convert r = .ok v) {n : Int} (hv : codeOf v = some n) : intOf r = some n := by
  have hwf := readable_wf d hd hk
  simp only [PackDesc.wf, Bool.and_eq_true, List.all_eq_true] at hwf
  have hw := hwf.1 f hf
  obtain ⟨ce, cf⟩ := conv_type hd hf
  simp only [FieldDesc.wf, Bool.and_eq_true] at hw
  obtain ⟨-, hw⟩ := hw
  unfold FieldDesc.convert at hc
  rw [hs] at hc
  cases hm : f.map with
  | none => rw [hm] at hc; cases hc; cases hv
  | some c =>
    rw [hm] at hc hw
    simp only at hc
    have hc' : c.convert f.mayFail r = .ok v := by
      revert hc
      cases c.convert f.mayFail r with
      | error e => intro h; cases h
      | ok x => intro h; exact h
    clear hc
    revert hc'
    unfold Conv.convert
    split
    · split
      · intro h; cases h; cases hv
      · intro h; cases h
    · split
      · intro h; cases h; cases hv
      · intro h; cases h
    · rename_i e x
      have he := ce e hm
      have hu : f.ty = .u8 := by revert hr; cases f.ty <;> simp [RawVal.ofTy]
      rw [hu] at hw
      simp only at hw
      by_cases hmf : f.mayFail = true
      · rw [if_pos hmf] at hw ⊢
        simp only [Bool.and_eq_true, beq_iff_eq] at hw
        rw [if_pos hw.2.1]
        have hrest := (c27_from_exhaustive e he).2 hw.2.1
        cases hy : e.fromUnchecked x with
        | error p => intro h; cases h
        | ok y =>
          intro h
          cases h
          have := (c28_closed_enums e he hrest).2.2.2.1 x y hy
          simp only [codeOf, Option.some.injEq] at hv
          rw [← hv, this.2]; rfl
      · rw [if_neg hmf] at hw ⊢
        simp only [Bool.and_eq_true, beq_iff_eq] at hw
        rw [if_pos hw.2.1]
        obtain ⟨y, h1, h2, h3⟩ := (c27_open_enums e he hw.2.2).1 x
        rw [h2]
        intro h
        cases h
        simp only [codeOf, Option.some.injEq] at hv
        rw [← hv, h3]; rfl
    · rename_i g
      have hg := (c29_flags_keep_bits g (cf g hm)).2.1
      split
      · rename_i x hx
        split
        · intro h
          cases h
          simp only [codeOf, Option.some.injEq] at hv
          have hlt : x < 2 ^ g.nbits ∧ intOf r = some (x : Int) := by
            revert hx
            cases r <;> simp only [RawVal.unsigned?, intOf] <;> (try split) <;>
              intro hx <;> cases hx <;> rename_i hn <;> rw [hn] <;> refine ⟨?_, rfl⟩
            · exact UInt8.toNat_lt _
            · exact UInt16.toNat_lt _
            · exact UInt32.toNat_lt _
          rw [hg x hlt.1] at hv
          rw [hlt.2, hv]
        · intro h; cases h
      · intro h; cases h
    · intro h; cases h; exact hv
    · intro h; cases h; exact hv
    · intro h; cases h; exact hv
    · intro h; cases h; exact hv
    · intro h; cases h; exact hv
    · rename_i x
      cases UartMode.from x with
      | error p => intro h; cases h
      | ok m => intro h; cases h; cases hv
    · intro h; cases h; cases hv
    · intro h; cases h; cases hv
    · intro h; cases h; cases hv
    · rename_i bs
      cases MonVer.convertToStrUnchecked bs with
      | error p => intro h; cases h
      | ok m => intro h; cases h; cases hv
    · intro h; cases h; cases hv
    · intro h; cases h; cases hv
    · intro h; cases h

/-- A field that is declared as in the description is read as in the description. -/
theorem reads_of_declared {d : PackDesc} (hd : d ∈ allPackets) (hk : d.kind ≠ .send) {e : Field}
    (h : declares d e = true) {payload : Bytes} (hl : total d.fields ≤ payload.length) :
    Reads d e payload := by
  obtain ⟨i, f, hf, hs⟩ := declares_field h
  unfold sameField at hs
  simp only [Bool.and_eq_true, beq_iff_eq] at hs
  obtain ⟨⟨⟨hname, hoff⟩, hty⟩, hkind⟩ := hs
  have ht : f.ty ≠ .tail := by rw [hty]; exact rawTy_ne_tail _
  have hw : width f.ty = e.ty.size := by rw [hty, width_rawTy]
  obtain ⟨r, hr, hden, hnone, hmap⟩ := c21_accessor hd hk hf ht hl
  rw [hoff, hw] at hden
  rw [hname] at hnone hmap
  have hr' : r.ofTy (rawTy e.ty) = true := by rw [← hty]; exact hr
  have hlen : ((payload.drop e.offset).take e.ty.size).length = e.ty.size := by
    have h1 := start_add_le_total hf
    rw [List.length_take, List.length_drop]
    omega
  refine ⟨hlen, ?_⟩
  generalize hbs : (payload.drop e.offset).take e.ty.size = bs at hden hlen ⊢
  have hint : (intRange f.ty).isSome = true → ∃ n, intOf r = some n ∧ n = e.ty.number bs := by
    intro hrg
    obtain ⟨⟨lo, hi⟩, hrg'⟩ := Option.isSome_iff_exists.mp hrg
    obtain ⟨n, hn, -, -⟩ := intOf_range hr hrg'
    exact ⟨n, hn, number_of_denotes hr' hden hn⟩
  have hsame : ∀ r' : RawVal, r'.ofTy f.ty = true →
      Denotes r' ((payload.drop (start d.fields i)).take (width f.ty)) → ∀ n, intOf r' = some n →
      n = e.ty.number bs := by
    intro r' h1 h2 n h3
    rw [hoff, hw, hbs] at h2
    exact number_of_denotes (by rw [← hty]; exact h1) h2 h3
  cases hkd : e.kind with
  | number q =>
    rw [hkd] at hkind
    simp only at hkind ⊢
    split at hkind
    · rename_i hm
      simp only [Bool.and_eq_true, beq_iff_eq] at hkind
      cases hs : f.scale with
      | none =>
        obtain ⟨r', n, h1, h2, h3, h4⟩ := c50_unscaled hd hk hf hs hm hl
        rw [hname] at h4
        have hq : q = 1 := by rw [← hkind.1, hs]; rfl
        have hn := hsame r' h1 h2 n h3
        refine ⟨_, h4, Or.inr (Or.inl ⟨_, rfl, (n : Rat), rfl, ?_⟩)⟩
        rw [hq, ← hn, mul_one, sub_self, abs_zero]
        positivity
      | some s =>
        have hq : s = q := by rw [← hkind.1, hs]; rfl
        obtain ⟨r', n, h1, h2, h3, h4⟩ := c50_scaled hd hk hf hs hl
        rw [hname, hq, hsame r' h1 h2 n h3] at h4
        rcases h4 with ⟨-, x, h5, h6⟩ | ⟨-, x, h5, h6⟩
        · exact ⟨_, h5, Or.inr (Or.inl ⟨x, rfl, h6⟩)⟩
        · exact ⟨_, h5, Or.inr (Or.inr ⟨x, rfl, h6⟩)⟩
    · simp only [Bool.and_eq_true, beq_iff_eq] at hkind
      obtain ⟨n, h1, h2⟩ := hint hkind.2
      exact ⟨_, hnone hkind.1.1, Or.inl ⟨r, rfl, by rw [h1, h2], hkind.1.2⟩⟩
  | code =>
    rw [hkd] at hkind
    simp only [Bool.and_eq_true, beq_iff_eq, bne_iff_ne] at hkind ⊢
    obtain ⟨n, h1, h2⟩ := hint hkind.2
    rw [h2] at h1
    by_cases hm : f.map = none
    · refine ⟨⟨r, Or.inr (hnone hm), h1⟩, fun v k hv hk' => ?_⟩
      rw [hnone hm] at hv
      cases hv; cases hk'
    · refine ⟨⟨r, Or.inl (hmap hm).1, h1⟩, fun v k hv hk' => ?_⟩
      rw [(hmap hm).2] at hv
      have := code_of_convert hd hk (List.mem_of_getElem? hf) hr hkind.1.2 hv hk'
      rw [h1] at this
      exact (Option.some.inj this).symm
  | ieee =>
    rw [hkd] at hkind
    simp only [Bool.and_eq_true, beq_iff_eq, Bool.or_eq_true] at hkind ⊢
    refine ⟨r, hnone hkind.1, ?_⟩
    rcases hkind.2 with h | h <;> rw [h] at hr' <;>
      cases r <;> simp [rawTy, RawVal.ofTy] at hr' <;> simp only [Denotes] at hden <;>
      simp only [patternOf, hden.2]
  | array =>
    rw [hkd] at hkind
    simp only [beq_iff_eq] at hkind ⊢
    rw [hkind] at hr
    cases r <;> simp [RawVal.ofTy] at hr
    simp only [Denotes] at hden
    by_cases hm : f.map = none
    · exact Or.inr (by rw [hnone hm, hden])
    · exact Or.inl (by rw [(hmap hm).1, hden])

/-- The length that the description allows is the one that the packet accepts. -/
theorem len_of_valid {d : PackDesc} {l : Len} (h : sameLen d l = true) {payload : Bytes}
    (hv : Valid d payload) : l.Ok payload.length := by
  have hmin : total d.fields ≤ payload.length := by
    have h1 := hv.1
    unfold LenOk required at h1
    split at h1 <;> split at h1 <;> omega
  cases l with
  | fixed n =>
    simp only [sameLen, Bool.and_eq_true, beq_iff_eq, List.all_eq_true, bne_iff_ne] at h
    have h1 := hv.1
    unfold LenOk required at h1
    have ht : d.fields.any (fun f => f.ty == .tail) = false := by
      rw [List.any_eq_false]
      intro f hf
      simpa using (h.2 f hf).1
    have hs : d.fields.filterMap (·.sizeFn) = [] := by
      rw [List.filterMap_eq_nil_iff]
      exact fun f hf => (h.2 f hf).2
    rw [ht, hs] at h1
    simp only [Bool.false_eq_true, if_false, List.map_nil, List.sum_nil, Nat.add_zero, ite_self] at h1
    show payload.length = n
    rw [h1, h.1]
  | «open» base =>
    simp only [sameLen, Bool.and_eq_true, beq_iff_eq] at h
    show base ≤ payload.length
    omega
  | blocks base size =>
    simp only [sameLen, Bool.and_eq_true, beq_iff_eq, Bool.or_eq_true, List.any_eq_true] at h
    obtain ⟨⟨hb, -⟩, ⟨h1, -⟩ | ⟨⟨f, i⟩, hx, ⟨⟨ht, hst⟩, hm⟩, hk⟩⟩ := h
    · exact ⟨payload.length - base, by rw [h1]; omega⟩
    · have hf := List.mem_zipIdx_iff_getElem?.mp hx
      simp only at hf ht hst hm hk
      have h2 := hv.2 i f hf hm
      cases hc : f.map with
      | none => rw [hc] at hk; cases hk
      | some c =>
        rw [hc] at hk h2
        cases c with
        | iter k =>
          simp only [beq_iff_eq] at hk h2
          obtain ⟨j, hj⟩ := h2.1
          unfold fieldBytes at hj
          rw [if_pos ht, hst, List.length_drop, hk] at hj
          exact ⟨j, by omega⟩
        | _ => cases hk

/-- Conversely. -/
theorem lenOk_of_len {d : PackDesc} {l : Len} (h : sameLen d l = true) (ho : ∀ b, l ≠ .open b)
    {payload : Bytes} (hl : l.Ok payload.length) : LenOk d payload := by
  unfold LenOk required
  cases l with
  | fixed n =>
    simp only [sameLen, Bool.and_eq_true, beq_iff_eq, List.all_eq_true, bne_iff_ne] at h
    have ht : d.fields.any (fun f => f.ty == .tail) = false := by
      rw [List.any_eq_false]
      intro f hf
      simpa using (h.2 f hf).1
    have hs : d.fields.filterMap (·.sizeFn) = [] := by
      rw [List.filterMap_eq_nil_iff]
      exact fun f hf => (h.2 f hf).2
    rw [ht, hs]
    simp only [Bool.false_eq_true, if_false, List.map_nil, List.sum_nil, Nat.add_zero, ite_self]
    rw [h.1]
    exact hl
  | «open» base => exact absurd rfl (ho base)
  | blocks base size =>
    simp only [sameLen, Bool.and_eq_true, beq_iff_eq, Bool.or_eq_true, List.any_eq_true,
      List.all_eq_true] at h
    have hs : d.fields.filterMap (·.sizeFn) = [] := by
      rw [List.filterMap_eq_nil_iff]
      exact fun f hf => h.1.2 f hf
    have ht : d.fields.any (fun f => f.ty == .tail) = true := by
      rw [List.any_eq_true]
      obtain ⟨-, ⟨-, h1⟩ | ⟨⟨f, i⟩, hx, ⟨⟨ht, -⟩, -⟩, -⟩⟩ := h
      · simpa using h1
      · exact ⟨f, List.mem_of_getElem? (List.mem_zipIdx_iff_getElem?.mp hx), by simpa using ht⟩
    obtain ⟨k, hk⟩ := hl
    rw [ht, hs, h.1.1]
    simp only [if_true, List.map_nil, List.sum_nil, Nat.add_zero, ite_self]
    omega

/-! ## The property -/

/-- **C57**, reading: whenever the parser hands out a packet, the frame has the class and id of that
message in the interface description, the payload has a length that the description allows, and every
accessor returns what the description says is at that place of the payload.  Missing for the full
statement: the fields in `departures`, where it is false (`c57_departures`). -/
theorem c57_reading_partial {m : Message} (hm : m ∈ interface) {cls id : UInt8} {d : PackDesc}
    {payload p : Bytes} (h : matchPacket cls id payload = .ok (.ok (.known d p)))
    (hn : d.name = m.packet) :
    cls = m.cls ∧ id = m.id ∧ p = payload ∧ m.len.Ok payload.length ∧
    ∀ e ∈ m.fields, (m.packet, e.accessor) ∉ departures → Reads d e payload := by
  obtain ⟨q, h1, h2, h3, -⟩ := c23_dispatch cls id payload
  rw [h] at h1
  simp only [Except.ok.injEq] at h1
  subst h1
  simp only [PacketRef.payload] at h3
  subst h3
  obtain ⟨hr, hv⟩ := delivered h
  obtain ⟨ha, hk⟩ := recv_readable d hr
  obtain ⟨e1, e2, e3, e4⟩ := interface_entry hm ha hn
  simp only [PacketRef.classAndMsgId, Prod.mk.injEq] at h2
  have hl : total d.fields ≤ p.length := by
    have h1 := hv.1
    unfold LenOk required at h1
    split at h1 <;> split at h1 <;> omega
  exact ⟨by rw [← h2.1, e1], by rw [← h2.2, e2], rfl, len_of_valid e3 hv,
    fun e he hx => reads_of_declared ha hk (e4 e he hx) hl⟩

/-- **C57** for the repeated blocks of NAV-SAT and RXM-RAWX and for packets that are decoded without
the parser: every slice that is long enough. -/
theorem c57_slice_partial {m : Message} (hm : m ∈ interface) {d : PackDesc} (hd : d ∈ allPackets)
    (hk : d.kind ≠ .send) (hn : d.name = m.packet) {payload : Bytes}
    (hl : total d.fields ≤ payload.length) :
    ∀ e ∈ m.fields, (m.packet, e.accessor) ∉ departures → Reads d e payload :=
  fun e he hx => reads_of_declared hd hk ((interface_entry hm hd hn).2.2.2 e he hx) hl

/-- **C57**: conversely, a payload whose length the description allows is not rejected because of its
length. -/
theorem c57_accepts {m : Message} (hm : m ∈ interface) {d : PackDesc} (hd : d ∈ allPackets)
    (hn : d.name = m.packet) {payload : Bytes} (hl : m.len.Ok payload.length)
    (ho : ∀ b, m.len ≠ .open b) : LenOk d payload :=
  lenOk_of_len (interface_entry hm hd hn).2.2.1 ho hl

/-- Range of the numbers of a format. -/
def range : Ty → Int × Int
  | .I1 => (-128, 127)
  | .I2 => (-32768, 32767)
  | .I4 => (-2147483648, 2147483647)
  | .U1 | .X1 => (0, 255)
  | .U2 | .X2 => (0, 65535)
  | _ => (0, 4294967295)

/-- The bytes are what the description asks for to transmit the value. -/
def Writes (e : Field) (v : Val) (bs : Bytes) : Prop :=
  bs.length = e.ty.size ∧
  match e.kind, v with
  | .number q, .raw r => intOf r = some (e.ty.number bs) ∧ q = 1
  | .number q, .f64 x => (∀ y, x.val? = some y →
      Near (range e.ty).1 (range e.ty).2 (1 / 400000) (y / q) (e.ty.number bs)) ∧
      ∀ neg, x = .inf neg → e.ty.number bs = if neg then (range e.ty).1 else (range e.ty).2
  | .number q, .f32 x => (∀ y, x.val? = some y →
      Near (range e.ty).1 (range e.ty).2 (1 / 50) (y / q) (e.ty.number bs)) ∧
      ∀ neg, x = .inf neg → e.ty.number bs = if neg then (range e.ty).1 else (range e.ty).2
  | .code, .raw r => intOf r = some (e.ty.number bs)
  | .code, .enum x => e.ty.number bs = x.2.toNat
  | .code, .flags b => e.ty.number bs = b
  | .code, .resetMode m => e.ty.number bs = resetCode m
  | .code, .alignment a => e.ty.number bs = timeRefCode a
  | .code, .uartMode m => e.ty.number bs = ((dataBitsCode m.dataBits * 2 ^ 6 +
      parityCode m.parity * 2 ^ 9 + stopBitsCode m.stopBits * 2 ^ 12 : Nat) : Int)
  | .code, .itfmConfig c => e.ty.number bs = c.intoRaw.toNat
  | .code, .itfmConfig2 c => e.ty.number bs = c.intoRaw.toNat
  | .ieee, .raw r => patternOf r = some (leNat bs)
  | .array, .raw r => r = .bytes bs
  | _, _ => False

theorem range_eq {t : Ty} {lo hi : Int} (h : intRange (rawTy t) = some (lo, hi)) :
    range t = (lo, hi) := by
  cases t <;> simp [rawTy, intRange] at h <;> simp [range, h]

theorem writes_of_rawOf {d : PackDesc} {e : Field} {f : FieldDesc} {i : Nat}
    (hs : sameField d e f i = true) {v : Val} {r : RawVal} {bs : Bytes} (hr : RawOf f v r)
    (hd : Denotes r bs) (hl : bs.length = e.ty.size) : Writes e v bs := by
  refine ⟨hl, ?_⟩
  unfold sameField at hs
  simp only [Bool.and_eq_true, beq_iff_eq] at hs
  obtain ⟨⟨⟨-, -⟩, hty⟩, hkind⟩ := hs
  obtain ⟨ho, hr⟩ := hr
  have ho' : r.ofTy (rawTy e.ty) = true := by rw [← hty]; exact ho
  have hnum : ∀ n, intOf r = some n → n = e.ty.number bs := fun n => number_of_denotes ho' hd
  cases hkd : e.kind with
  | number q =>
    rw [hkd] at hkind
    simp only at hkind
    split at hkind
    · rename_i hm
      simp only [Bool.and_eq_true, beq_iff_eq] at hkind
      rcases hm with hm | hm <;> rw [hm] at hr <;> cases v <;> simp only at hr <;>
        obtain ⟨m, lo, hi, s, h1, h2, h3, h4, h5⟩ := hr <;>
        rw [hty] at h2 <;> rw [h3] at hkind <;> simp only [Option.getD_some] at hkind <;>
        rw [hnum m h1, hkind.1] at h4 <;> rw [hnum m h1] at h5 <;> simp only [range_eq h2] <;>
        exact ⟨h4, h5⟩
    · simp only [Bool.and_eq_true, beq_iff_eq] at hkind
      rw [hkind.1.1] at hr
      cases v <;> simp only at hr
      subst hr
      obtain ⟨⟨lo, hi⟩, hrg⟩ := Option.isSome_iff_exists.mp hkind.2
      obtain ⟨n, hn, -, -⟩ := intOf_range ho hrg
      exact ⟨by rw [hn, hnum n hn], hkind.1.2⟩
  | code =>
    rw [hkd] at hkind
    simp only [Bool.and_eq_true, beq_iff_eq, bne_iff_ne] at hkind
    obtain ⟨⟨⟨hm1, hm2⟩, -⟩, hrg⟩ := hkind
    obtain ⟨⟨lo, hi⟩, hrg⟩ := Option.isSome_iff_exists.mp hrg
    obtain ⟨n, hn, -, -⟩ := intOf_range ho hrg
    revert hr
    split
    · intro h; subst h; show intOf r = _; rw [hn, hnum n hn]
    · rename_i hm; exact absurd hm hm2
    · rename_i hm; exact absurd hm hm1
    · intro h; exact (hnum _ h).symm
    · intro h; exact (hnum _ h).symm
    · intro h; exact (hnum _ h).symm
    · intro h; subst h; exact (hnum _ rfl).symm
    · intro h; subst h; exact (hnum _ rfl).symm
    · intro h; exact (hnum _ h).symm
    · intro h; exact (hnum _ h).symm
    · intro h; exact h.elim
  | ieee =>
    rw [hkd] at hkind
    simp only [Bool.and_eq_true, beq_iff_eq, Bool.or_eq_true] at hkind
    rw [hkind.1] at hr
    cases v <;> simp only at hr
    subst hr
    rcases hkind.2 with h | h <;> rw [h] at ho' <;>
      cases r <;> simp [rawTy, RawVal.ofTy] at ho' <;> simp only [Denotes] at hd <;>
      simp only [patternOf, hd.2]
  | array =>
    rw [hkd] at hkind
    simp only [beq_iff_eq] at hkind
    rw [hkind] at ho
    cases r <;> simp [RawVal.ofTy] at ho
    simp only [Denotes] at hd
    subst hd
    revert hr
    split
    · intro h; exact h.symm
    · rintro ⟨m, _, _, _, h, -⟩; cases h
    · rintro ⟨m, _, _, _, h, -⟩; cases h
    all_goals (intro h; cases h)

/-- The departures are fields of packets that are received; no builder writes them. -/
theorem c57_departures_received : ∀ x ∈ departures, ∀ d ∈ allPackets, d.name = x.1 →
    d ∈ recvPackets ∧ d.hasBuilder = false := by
  have h : (departures.all fun x => allPackets.all fun d => d.name != x.1 ||
      recvPackets.contains d && !d.hasBuilder) = true := by decide +kernel
  intro x hx d hd hn
  have h1 := List.all_eq_true.mp (List.all_eq_true.mp h x hx) d hd
  simpa [hn] using h1

/-- **C57**, building: what a builder returns is a frame with the class, id and payload length of the
description, and for every field the payload has at the place of the description the bytes that stand
for the builder's value.  This holds for all builders except CFG-VALSET, whose body of variable size
is the subject of C35 to C37. -/
theorem c57_building {m : Message} (hm : m ∈ interface) {d : PackDesc} (hd : d ∈ allPackets)
    (hb : d.hasBuilder = true) (hn : d.name = m.packet) (ht : ∀ f ∈ d.fields, f.ty ≠ .tail)
    {b : Builder} {bytes : Bytes} (h : d.intoPacketBytes b = .ok bytes) :
    ∃ payload, bytes = frame m.cls m.id payload ∧ m.len.Ok payload.length ∧
      ∀ e ∈ m.fields, ∃ (i : Nat) (f : FieldDesc) (v : Val), d.fields[i]? = some f ∧ f.getName = e.accessor ∧
          b[i]? = some v ∧ Writes e v ((payload.drop e.offset).take e.ty.size) := by
  obtain ⟨e1, e2, e3, e4⟩ := interface_entry hm hd hn
  have hbu := buildable_of_ok hd hb ht h
  obtain ⟨payload, h1, h2, h3⟩ := c18_returned hd hb ht h
  refine ⟨payload, by rw [h1, e1, e2], ?_, fun e he => ?_⟩
  · cases hl : m.len with
    | fixed n =>
      rw [hl] at e3
      simp only [sameLen, Bool.and_eq_true, beq_iff_eq] at e3
      show payload.length = n
      rw [h3, e3.1]
    | «open» n =>
      rw [hl] at e3
      simp only [sameLen, Bool.and_eq_true, beq_iff_eq] at e3
      show n ≤ payload.length
      omega
    | blocks base size =>
      rw [hl] at e3
      simp only [sameLen, Bool.and_eq_true, beq_iff_eq] at e3
      exact ⟨0, by omega⟩
  · have hx : (m.packet, e.accessor) ∉ departures := by
      intro hx
      have := (c57_departures_received _ hx d hd hn).2
      rw [hb] at this
      cases this
    obtain ⟨i, f, hf, hs⟩ := declares_field (e4 e he hx)
    have hi : i < b.length := by rw [hbu.1]; exact (List.getElem?_eq_some_iff.mp hf).1
    have hv := List.getElem?_eq_getElem hi
    obtain ⟨r, hr, hden⟩ := payloadOf_slot hbu.1 h2 hf hv
    have hs' := hs
    unfold sameField at hs'
    simp only [Bool.and_eq_true, beq_iff_eq] at hs'
    obtain ⟨⟨⟨hname, hoff⟩, hty⟩, -⟩ := hs'
    have hw : width f.ty = e.ty.size := by rw [hty, width_rawTy]
    rw [hoff, hw] at hden
    refine ⟨i, f, _, hf, hname, hv, writes_of_rawOf hs hr hden ?_⟩
    have := start_add_le_total hf
    rw [List.length_take, List.length_drop]
    omega

/-! ## Completeness of the description and the departures -/

/-- **C57**: the description has every packet, and of every packet all accessors except those of
reserved bytes and of the repeated or free part at the end. -/
theorem c57_complete : ∀ d ∈ allPackets, ∃ m ∈ interface, m.packet = d.name ∧
    ∀ f ∈ d.fields, f.ty ≠ .tail → ¬ "reserved".isPrefixOf f.getName →
      ∃ e ∈ m.fields, e.accessor = f.getName := by
  have h : (allPackets.all fun d => interface.any fun m => m.packet == d.name &&
      d.fields.all fun f => f.ty == .tail || "reserved".isPrefixOf f.getName ||
        m.fields.any fun e => e.accessor == f.getName) = true := by decide +kernel
  intro d hd
  have h1 := List.all_eq_true.mp h d hd
  simp only [List.any_eq_true, Bool.and_eq_true, beq_iff_eq, List.all_eq_true, Bool.or_eq_true] at h1
  obtain ⟨m, hm, h2, h3⟩ := h1
  refine ⟨m, hm, h2, fun f hf h4 h5 => ?_⟩
  rcases h3 f hf with (h6 | h6) | h6
  · exact absurd h6 h4
  · exact absurd h6 h5
  · exact h6

/-- The accessor does not return what the description says. -/
def refutes (d : PackDesc) (e : Field) (payload : Bytes) : Bool :=
  let n : Int := e.ty.number ((payload.drop e.offset).take e.ty.size)
  match e.kind, d.get e.accessor payload with
  | .number q, .ok (.f64 (.fin y)) => decide (|(n : Rat) * q| / 2 ^ 51 < |y - n * q|)
  | .number _, .ok (.raw r) => intOf r != some n
  | _, _ => false

theorem not_reads {d : PackDesc} {e : Field} {payload : Bytes} (h : refutes d e payload = true) :
    ¬ Reads d e payload := by
  rintro ⟨-, hr⟩
  unfold refutes at h
  simp only at h
  split at h
  · rename_i q y hk hg
    rw [hk] at hr
    simp only at hr
    obtain ⟨v, h1, h2⟩ := hr
    rw [hg] at h1
    cases h1
    have h' := of_decide_eq_true h
    rcases h2 with ⟨r, h3, -⟩ | ⟨x, h3, v, h4, h5⟩ | ⟨x, h3, -⟩
    · cases h3
    · cases h3
      cases h4
      exact absurd h5 (not_le.mpr h')
    · cases h3
  · rename_i q r hk hg
    rw [hk] at hr
    simp only at hr
    obtain ⟨v, h1, h2⟩ := hr
    rw [hg] at h1
    cases h1
    rcases h2 with ⟨r, h3, h4, -⟩ | ⟨x, h3, -⟩ | ⟨x, h3, -⟩
    · cases h3
      simp [h4] at h
    · cases h3
    · cases h3
  · cases h

/-- **C57** is false for the departures: already the payload of bytes `ff` is read differently. -/
theorem c57_departures {m : Message} (hm : m ∈ interface) {d : PackDesc} (hd : d ∈ allPackets)
    (hn : d.name = m.packet) {e : Field} (he : e ∈ m.fields)
    (hx : (m.packet, e.accessor) ∈ departures) :
    ¬ Reads d e (List.replicate (total d.fields) 0xff) := by
  have h : (interface.all fun m => allPackets.all fun d => d.name != m.packet ||
      m.fields.all fun e => !departures.contains (m.packet, e.accessor) ||
        refutes d e (List.replicate (total d.fields) 0xff)) = true := by decide +kernel
  have h1 := List.all_eq_true.mp (List.all_eq_true.mp h m hm) d hd
  rw [hn] at h1
  simp only [bne_self_eq_false, Bool.false_or] at h1
  have h2 := List.all_eq_true.mp h1 e he
  rw [show departures.contains (m.packet, e.accessor) = true by simpa using hx, Bool.not_true,
    Bool.false_or] at h2
  exact not_reads h2

/-- What the accessors of the departures return instead: the field as it would have to be described
for them to be right. -/
def instead : List (String × Field) :=
  [("NavPvt", scaled 60 .U4 "ground_speed" e3), ("NavVelECEF", num 12 .U4 "ecef_vz"),
    ("NavHpPosLlh", scaled 26 .I1 "height_hp_meters" e1), ("TimSvin", num 16 .I4 "mean_v")] ++
  ([(4, "alpha0"), (5, "alpha1"), (6, "alpha2"), (7, "alpha3"), (8, "beta0"), (9, "beta1"),
    (10, "beta2"), (11, "beta3")].map fun x => ("MgaGpsIono", num x.1 .I1 x.2)) ++
  ([(7, .I1, "tgd", mkRat 2 (10 ^ 31)), (10, .U2, "toc", 20000), (13, .I1, "af2", mkRat 2 (10 ^ 55)),
    (14, .I2, "afl", mkRat 2 (10 ^ 43)), (16, .I4, "af0", mkRat 2 (10 ^ 31)),
    (20, .I2, "crs", mkRat 2 (10 ^ 5)), (22, .I2, "delta_n", mkRat 2 (10 ^ 43)),
    (24, .I4, "m0", mkRat 2 (10 ^ 31)), (28, .I2, "cuc", mkRat 2 (10 ^ 29)),
    (30, .I2, "cus", mkRat 2 (10 ^ 29)), (32, .U4, "e", mkRat 2 (10 ^ 33)),
    (36, .U4, "sqrt_a", mkRat 2 (10 ^ 19)), (40, .U2, "toe", 20000),
    (42, .I2, "cic", mkRat 2 (10 ^ 29)), (44, .I4, "omega0", mkRat 2 (10 ^ 31)),
    (48, .I2, "cis", mkRat 2 (10 ^ 29)), (50, .I2, "crc", mkRat 2 (10 ^ 5)),
    (52, .I4, "i0", mkRat 2 (10 ^ 31)), (56, .I4, "omega", mkRat 2 (10 ^ 31)),
    (60, .I4, "omega_dot", mkRat 2 (10 ^ 43)), (64, .I2, "idot", mkRat 2 (10 ^ 43))].map
    fun x => ("MgaGpsEPH", scaled x.1 x.2.1 x.2.2.1 x.2.2.2))

/-- **C57**, the departures exactly: for every one of them what the accessor returns for any payload,
so that together with `c57_slice_partial` the value of every accessor is determined. -/
theorem c57_departures_read {x : String × Field} (hx : x ∈ instead) {d : PackDesc}
    (hd : d ∈ allPackets) (hn : d.name = x.1) {payload : Bytes}
    (hl : total d.fields ≤ payload.length) : Reads d x.2 payload := by
  have h : (instead.all fun x => allPackets.all fun d => d.name != x.1 ||
      decide (d.kind ≠ .send) && declares d x.2) = true := by decide +kernel
  have h1 := List.all_eq_true.mp (List.all_eq_true.mp h x hx) d hd
  rw [hn] at h1
  simp only [bne_self_eq_false, Bool.false_or, Bool.and_eq_true, decide_eq_true_eq] at h1
  exact reads_of_declared hd h1.1 h1.2 hl

/-- The table above has exactly the departures, at the places of the description. -/
theorem c57_departures_listed : instead.map (fun x => (x.1, x.2.accessor)) = departures ∧
    ∀ x ∈ instead, ∃ m ∈ interface, m.packet = x.1 ∧ ∃ e ∈ m.fields, e.accessor = x.2.accessor ∧
      e.offset = x.2.offset ∧ e.ty.size = x.2.ty.size := by
  have h : (instead.all fun x => interface.any fun m => m.packet == x.1 && m.fields.any fun e =>
      e.accessor == x.2.accessor && e.offset == x.2.offset && e.ty.size == x.2.ty.size) = true := by
    decide +kernel
  refine ⟨by decide +kernel, fun x hx => ?_⟩
  have h1 := List.all_eq_true.mp h x hx
  simp only [List.any_eq_true, Bool.and_eq_true, beq_iff_eq] at h1
  obtain ⟨m, h2, h3, e, h4, ⟨h5, h6⟩, h7⟩ := h1
  exact ⟨m, h2, h3, e, h4, h5, h6, h7⟩

/-- A negative ground speed is read as a large positive one. -/
example : ("NavPvt", scaled 60 .U4 "ground_speed" e3) ∈ instead ∧ navPvt_ ∈ allPackets ∧
    navPvt_.name = "NavPvt" ∧ total navPvt_.fields = 92 := by decide +kernel

/-- The longitude of NAV-POSLLH: four bytes at offset 4, in units of 10^-7 degrees. -/
example : (⟨4, .I4, "lon_degrees", .number (mkRat 1 10000000)⟩ : Field) ∈
      (interface.filter (·.packet = "NavPosLlh")).flatMap (·.fields) ∧
    ("NavPosLlh", "lon_degrees") ∉ departures ∧
    matchPacket 0x01 0x02 (List.replicate 28 1) =
      .ok (.ok (.known navPosLlh_ (List.replicate 28 1))) ∧
    navPosLlh_.name = "NavPosLlh" := by decide +kernel

/-- A builder for CFG-RATE meets the hypotheses of `c57_building`. -/
example : cfgRate_ ∈ allPackets ∧ cfgRate_.hasBuilder = true ∧
    (∀ f ∈ cfgRate_.fields, f.ty ≠ .tail) ∧
    cfgRate_.intoPacketBytes exRate = .ok [0xb5, 0x62, 6, 8, 6, 0, 0xe8, 3, 1, 0, 1, 0, 1, 0x39] ∧
    (interface.any fun m => m.packet == cfgRate_.name) = true := by decide +kernel

/-- TIM-SVIN: the variance `meanV` is unsigned (U4), the accessor reads it as signed. -/
example : ∃ d ∈ recvPackets, d.name = "TimSvin" ∧
    d.get "mean_v" (List.replicate 28 0xff) = .ok (.raw (.i32 (-1))) :=
  ⟨timSvin_, by decide +kernel, by decide +kernel, by decide +kernel⟩

end Ublox.Props
