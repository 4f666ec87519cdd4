import Verif.Lemmas.Cli
import Verif.Props.Device
import Verif.Props.Time
import Verif.Props.Reading
import Verif.Props.Serialize

/-!
# C64, C65: the example program

C64: what the main loop prints and when it ends.  C65: what the program writes to the port.
-/

namespace Ublox.Props

open Spec Gen

/-! ## C64 The message handler -/

theorem navPvt_delivered (p : Bytes) :
    matchPacket 0x01 0x07 p = .ok (.ok (.known navPvt_ p)) ↔ p.length = 92 := by
  rw [delivered_iff (by decide +kernel), valid_iff]
  have hf : fallible navPvt_ = [] := by decide +kernel
  rw [hf]
  simp only [List.not_mem_nil, false_implies, implies_true, and_true]
  unfold LenOk required
  rw [if_neg (by decide +kernel)]
  have : total navPvt_.fields = 92 := by decide +kernel
  have e : navPvt_.fields.filterMap (·.sizeFn) = [] := by decide +kernel
  rw [this, e]
  simp

theorem cfgPrtUart_delivered (p : Bytes) :
    matchPacket 0x06 0x00 p = .ok (.ok (.known cfgPrtUart_ p)) ↔
      p.length = 20 ∧ (p[0]? = some 1 ∨ p[0]? = some 2 ∨ p[0]? = some 3) := by
  constructor
  · intro h
    have hv := (delivered h).2
    have hl : p.length = 20 := by
      have := hv.1
      unfold LenOk required at this
      rw [if_neg (by decide +kernel)] at this
      have e1 : total cfgPrtUart_.fields = 20 := by decide +kernel
      have e : cfgPrtUart_.fields.filterMap (·.sizeFn) = [] := by decide +kernel
      rw [e1, e] at this
      simpa using this
    refine ⟨hl, ?_⟩
    cases p with
    | nil => simp at hl
    | cons b rest =>
      rw [c24_cfg_prt b rest (by simpa using hl)] at h
      by_cases h1 : b = 0
      · rw [if_pos h1] at h
        simp only [Except.ok.injEq, PacketRef.known.injEq, and_true] at h
        exact absurd h (by decide +kernel)
      · rw [if_neg h1] at h
        by_cases h2 : b = 4
        · rw [if_pos h2] at h
          simp only [Except.ok.injEq, PacketRef.known.injEq, and_true] at h
          exact absurd h (by decide +kernel)
        · rw [if_neg h2] at h
          by_cases h3 : b = 1 ∨ b = 2 ∨ b = 3
          · simpa using h3
          · rw [if_neg h3] at h
            simp at h
  · rintro ⟨hl, h⟩
    cases p with
    | nil => simp at hl
    | cons b rest =>
      simp only [List.getElem?_cons_zero, Option.some.injEq] at h
      rw [c24_cfg_prt b rest (by simpa using hl)]
      rcases h with rfl | rfl | rfl <;> rfl

theorem gpsFix_name (x : UInt8) : ∃ v, gpsFix_.from x = .ok v ∧
    Cli.isFix (.enum v) "Fix3D" = decide (x = 3) ∧
    Cli.isFix (.enum v) "GPSPlusDeadReckoning" = decide (x = 4) ∧
    Cli.isFix (.enum v) "TimeOnlyFix" = decide (x = 5) := by
  obtain ⟨h1, h2, h3, h4, h5⟩ := c27_open_enums gpsFix_ (by decide +kernel) rfl
  obtain ⟨v, hv, hf, rfl⟩ := h1 x
  have key : ∀ n c, (n, c) ∈ gpsFix_.variants → Cli.isFix (.enum v) n = decide (v.2 = c) := by
    intro n c hc
    have hall : (n, c) ∈ gpsFix_.allVariants := by
      unfold EnumDesc.allVariants
      rw [if_pos (by rfl)]
      exact List.mem_append_left _ hc
    unfold Cli.isFix
    simp only
    by_cases hn : v.1 = n
    · have : v = (n, c) := List.inj_on_of_nodup_map h5 hv hall hn
      simp [this]
    · have : v.2 ≠ c := by
        intro he
        have := h4 _ hc
        simp only at this
        rw [← he, hf] at this
        exact hn (by rw [Except.ok.inj this])
      simp [hn, this]
  exact ⟨v, hf, key _ _ (by decide +kernel), key _ _ (by decide +kernel), key _ _ (by decide +kernel)⟩

theorem navPvt_fix {p : Bytes} (hl : p.length = 92) : ∃ v,
    navPvt_.get "fix_type" p = .ok (.enum v) ∧
    Cli.isFix (.enum v) "Fix3D" = decide (p[20]? = some 3) ∧
    Cli.isFix (.enum v) "GPSPlusDeadReckoning" = decide (p[20]? = some 4) ∧
    Cli.isFix (.enum v) "TimeOnlyFix" = decide (p[20]? = some 5) := by
  have hv := (delivered ((navPvt_delivered p).mpr hl)).2
  have hwf := recv_wf (d := navPvt_) (by decide +kernel)
  have hn := names_nodup navPvt_ (by decide +kernel)
  obtain ⟨r, h1, h2, h3, -⟩ := get_sized (i := 10) (f := { name := "fix_type", ty := .u8, map := some (.enum gpsFix_) })
    hwf hn rfl (by simp) (lenOk_total_le hv.1)
  have e1 : start navPvt_.fields 10 = 20 := by decide +kernel
  simp only [fieldBytes, e1, width, reduceCtorEq, if_false] at h2
  cases r <;> simp [RawVal.ofTy] at h1
  rename_i x
  have hx : p[20]? = some x := by
    have h20 : 20 < p.length := by omega
    have h2' : x.toNat = leNat ((p.drop 20).take 1) := h2.2
    rw [List.drop_eq_getElem_cons h20] at h2'
    simp only [List.take_succ_cons, List.take_zero, leNat] at h2'
    rw [List.getElem?_eq_getElem h20]
    congr 1
    apply UInt8.toNat.inj
    omega
  obtain ⟨v, f1, f2, f3, f4⟩ := gpsFix_name x
  refine ⟨v, ?_, ?_, ?_, ?_⟩
  · simp only [FieldDesc.getName, Option.getD_none] at h3
    rw [h3]
    simp only [FieldDesc.convert, Conv.convert, f1]
    rfl
  · rw [f2, hx]; simp
  · rw [f3, hx]; simp
  · rw [f4, hx]; simp

/-- The time conversion, in terms of `TimeOk`. -/
theorem pvt_time {p : Bytes} (hl : p.length = 92) :
    (TimeOk p → ∃ t, dateTimeFromNavPvt p = .ok (.ok t) ∧ RealDateTime t ∧
      instantOf t = instant (pvtTime p).year (pvtTime p).month (pvtTime p).day (pvtTime p).hour
        (pvtTime p).min (pvtTime p).sec (pvtTime p).ns) ∧
    (¬ TimeOk p → ∃ e, dateTimeFromNavPvt p = .ok (.error e)) := by
  obtain ⟨h1, h2, h3, h4⟩ := c41_time ((navPvt_delivered p).mpr hl)
  constructor
  · rintro ⟨a, b, c⟩
    exact h4 a b c
  · intro hn
    by_cases ha : RealDate (pvtTime p).year (pvtTime p).month (pvtTime p).day
    · by_cases hb : (pvtTime p).hour ≤ 23 ∧ (pvtTime p).min ≤ 59 ∧ (pvtTime p).sec ≤ 59
      · by_cases hc : -1000000000 < (pvtTime p).ns ∧ (pvtTime p).ns < 1000000000
        · exact absurd ⟨ha, hb, hc⟩ hn
        · exact ⟨_, h3 ha hb hc⟩
      · exact ⟨_, h2 ha hb⟩
    · exact ⟨_, h1 ha⟩

/-- `Debug` shows every field once, in declaration order, with what its accessor returns. -/
theorem debug_entries {cls id : UInt8} {payload p : Bytes} {d : PackDesc}
    (h : matchPacket cls id payload = .ok (.ok (.known d p)))
    (hu : d = cfgPrtUart_ → UartWordOk p) :
    ∃ kvs, d.debugFields p = .ok kvs ∧ EntriesOf d p kvs := by
  obtain ⟨vs, h1, h2, h3⟩ := c47_entries h hu
  obtain ⟨kvs, hk⟩ := (c25_accessors_partial h hu).2.2.2
  refine ⟨kvs, hk, ?_⟩
  unfold PackDesc.debugFields at hk
  simp only [PacketRef.serialize, hk, Except.ok_bind] at h2
  have h2' : (Except.ok ([("class", Val.raw (.u8 d.cls)), ("msg_id", .raw (.u8 d.id))] ++ kvs) : R _) =
    .ok (("class", .raw (.u8 cls)) :: ("msg_id", .raw (.u8 id)) ::
      (d.fields.map FieldDesc.name).zip vs) := h2
  simp only [List.cons_append, List.nil_append, Except.ok.injEq, List.cons.injEq] at h2'
  obtain ⟨-, -, rfl⟩ := h2'
  refine ⟨by rw [List.map_fst_zip (by simp [h1])], fun j f hf => ?_⟩
  obtain ⟨v, h4, h5⟩ := h3 j f hf
  refine ⟨v, ?_, h5⟩
  rw [List.getElem?_zip_eq_some]
  exact ⟨by rw [List.getElem?_map, hf]; rfl, h4⟩

/-- **C64** What is printed for a NAV-PVT packet: nothing without a fix; position, velocity and all
fields for a 3D fix or GNSS with dead reckoning; the time for these and for a time-only fix.  If date
or time do not exist then, the program panics. -/
theorem c64_navPvt {p : Bytes} (hl : p.length = 92) :
    (HasTime p → ¬ TimeOk p → ∃ q, Cli.handleNavPvt p = .error q) ∧
    ((HasTime p → TimeOk p) → ∃ out, Cli.handleNavPvt p = .ok out ∧
      (¬ HasTime p → out = []) ∧
      (HasTime p → ∃ pre t, out = pre ++ [.time t] ∧ RealDateTime t ∧
        instantOf t = instant (pvtTime p).year (pvtTime p).month (pvtTime p).day (pvtTime p).hour
          (pvtTime p).min (pvtTime p).sec (pvtTime p).ns ∧
        (¬ HasPosition p → pre = []) ∧
        (HasPosition p → ∃ pos vel kvs, pre = [.position pos, .velocity vel, .packet kvs] ∧
          ApproxRel pos.lon (i32At p 24 / 10000000) ∧ ApproxRel pos.lat (i32At p 28 / 10000000) ∧
          ApproxRel pos.alt (i32At p 36 / 1000) ∧ ApproxRel vel.speed (u32At p 60 / 1000) ∧
          ApproxRel vel.heading (i32At p 64 / 100000) ∧ EntriesOf navPvt_ p kvs))) := by
  have hm := (navPvt_delivered p).mpr hl
  obtain ⟨v, g0, g1, g2, g3⟩ := navPvt_fix hl
  obtain ⟨pos, a1, a2, a3, a4⟩ := c44_navPvt_position hm
  obtain ⟨vel, b1, b2, b3⟩ := c44_navPvt_velocity hm
  obtain ⟨kvs, c1, c2⟩ := debug_entries hm (fun h => absurd h (by decide +kernel))
  obtain ⟨t1, t2⟩ := pvt_time hl
  have hpos : (decide (p[20]? = some 3) || decide (p[20]? = some 4)) = decide (HasPosition p) := by
    rw [Bool.eq_iff_iff, Bool.or_eq_true, decide_eq_true_iff, decide_eq_true_iff, decide_eq_true_iff]
    rfl
  have htime : (decide (HasPosition p) || decide (p[20]? = some 5)) = decide (HasTime p) := by
    rw [Bool.eq_iff_iff, Bool.or_eq_true, decide_eq_true_iff, decide_eq_true_iff, decide_eq_true_iff]
    exact or_assoc
  have hpt : HasPosition p → HasTime p := by
    rintro (h | h)
    · exact .inl h
    · exact .inr (.inl h)
  have hval : Cli.handleNavPvt p = (do
      let posvel : List Cli.Printed ←
        if decide (HasPosition p) = true then pure [.position pos, .velocity vel, .packet kvs] else pure []
      let time ← if decide (HasTime p) = true then do
          match ← dateTimeFromNavPvt p with
          | .error _ => throw .unwrap
          | .ok t => pure [.time t]
        else pure []
      return posvel ++ time) := by
    unfold Cli.handleNavPvt
    simp only [g0, Except.ok_bind, g1, g2, g3, hpos, htime, a1, b1, c1]
    rfl
  rw [hval]
  constructor
  · intro ht hn
    obtain ⟨e, he⟩ := t2 hn
    rw [decide_eq_true ht, he]
    by_cases hp : HasPosition p
    · rw [decide_eq_true hp]; exact ⟨_, rfl⟩
    · rw [decide_eq_false hp]; exact ⟨_, rfl⟩
  · intro hok
    by_cases ht : HasTime p
    · obtain ⟨t, k1, k2, k3⟩ := t1 (hok ht)
      rw [decide_eq_true ht, k1]
      by_cases hp : HasPosition p
      · rw [decide_eq_true hp]
        exact ⟨_, rfl, fun h => absurd ht h, fun _ => ⟨[.position pos, .velocity vel, .packet kvs], t,
          rfl, k2, k3, fun h => absurd hp h,
          fun _ => ⟨pos, vel, kvs, rfl, a2, a3, a4, b2, b3, c2⟩⟩⟩
      · rw [decide_eq_false hp]
        exact ⟨_, rfl, fun h => absurd ht h, fun _ => ⟨[], t, rfl, k2, k3, fun _ => rfl,
          fun h => absurd h hp⟩⟩
    · rw [decide_eq_false ht, decide_eq_false fun h => ht (hpt h)]
      exact ⟨_, rfl, fun _ => rfl, fun h => absurd h ht⟩

/-- A 3D fix on 1 March 2024; the same with month 13. -/
example :
    let p (month : UInt8) : Bytes := [0, 0, 0, 0, 0xe8, 0x07, month, 1] ++ List.replicate 12 0 ++ [3] ++
      List.replicate 71 0
    (p 3).length = 92 ∧ HasTime (p 3) ∧ HasPosition (p 3) ∧ TimeOk (p 3) ∧ HasTime (p 13) ∧
      ¬ TimeOk (p 13) := by
  refine ⟨by decide, by decide, by decide, ?_, by decide, ?_⟩
  · exact ⟨⟨by decide, 31, by decide +kernel, by decide, by decide⟩, by decide +kernel, by decide +kernel,
      by decide +kernel⟩
  · rintro ⟨⟨-, len, h, -⟩, -⟩
    have : (monthLengths (leNat ([0xe8, 0x07] : Bytes)))[13 - 1]? = some len := h
    simp [monthLengths] at this

/-- **C64** What is printed for a MON-VER packet: both versions and all extensions, then all fields. -/
theorem c64_monVer {payload : Bytes} {M : Nat} (hM : payload.length ≤ M)
    (h : matchPacket 0x0a 0x04 payload = .ok (.ok (.known monVer_ payload))) :
    ∃ (sw hw : Bytes) (ext : List Bytes) (kvs : List (String × Val)),
      Cli.handleMonVer M payload =
        some (.ok [.version (.str sw) (.str hw) (ext.map .str), .packet kvs]) ∧
      CStr (payload.take 30) sw ∧ CStr ((payload.drop 30).take 10) hw ∧
      ext.length = (payload.length - 40) / 30 ∧
      (∀ (i : Nat) (s : Bytes), ext[i]? = some s → CStr (block 30 (payload.drop 40) i) s) ∧
      EntriesOf monVer_ payload kvs := by
  obtain ⟨⟨sw, a1, a2⟩, ⟨hw, b1, b2⟩, data, ext, c1, c2, c3, c4⟩ := c33_strings hM h
  obtain ⟨kvs, d1, d2⟩ := debug_entries h (fun h => absurd h (by decide +kernel))
  refine ⟨sw, hw, ext, kvs, ?_, a2, b2, c2, c3, d2⟩
  obtain ⟨st, hst⟩ := c4 1
  have hc := collect_of_iterate (items := ext.map IterItem.str) (M := M) (k := .monVerExt)
    (st := IterKind.monVerExt.new data) (st' := st) (by
      rw [List.length_map, hst]
      simp [List.map_map, Function.comp_def])
  unfold Cli.handleMonVer
  simp only [a1, b1, c1, hc, d1]

/-- A packet on which the handler panics. -/
def Fatal (q : PacketRef) : Prop :=
  (∃ p, q = .known navPvt_ p ∧ HasTime p ∧ ¬ TimeOk p) ∨
  (∃ p, q = .known cfgPrtUart_ p ∧ ¬ ModeOk p)

theorem class_of_known {cls id : UInt8} {payload p : Bytes} {d : PackDesc}
    (h : matchPacket cls id payload = .ok (.ok (.known d p))) :
    cls = d.cls ∧ id = d.id ∧ payload = p := by
  obtain ⟨q, h1, h2, h3, -⟩ := c23_dispatch cls id payload
  rw [h] at h1
  simp only [Except.ok.injEq] at h1
  subst h1
  simp only [PacketRef.classAndMsgId, Prod.mk.injEq] at h2
  exact ⟨h2.1.symm, h2.2.symm, h3.symm⟩

/-- **C64** The handler finishes on every packet that the parser hands out.  It panics exactly on
NAV-PVT packets with a fix with time whose date or time does not exist, and on CFG-PRT packets of UARTs
whose mode word has no meaning.  Every other packet of a known type is printed with all its fields, and
an unknown packet with its class, id and payload. -/
theorem c64_handler {cls id : UInt8} {payload : Bytes} {q : PacketRef} {M : Nat}
    (hM : payload.length ≤ M) (h : matchPacket cls id payload = .ok (.ok q)) :
    (Fatal q → ∃ e, Cli.handle M q = some (.error e)) ∧
    (¬ Fatal q → ∃ out, Cli.handle M q = some (.ok out) ∧
      (∀ d p, q = .known d p → d ≠ navPvt_ → d ≠ monVer_ →
        ∃ kvs, out = [.packet kvs] ∧ EntriesOf d p kvs) ∧
      (∀ p, q = .known navPvt_ p → .ok out = Cli.handleNavPvt p) ∧
      (∀ p, q = .known monVer_ p → some (.ok out) = Cli.handleMonVer M p) ∧
      (∀ p c i, q = .unknown p c i → out = [.unknown p c i])) := by
  cases q with
  | unknown p c i =>
    refine ⟨?_, fun _ => ⟨_, rfl, nofun, nofun, nofun, ?_⟩⟩
    · rintro (⟨p, h, -⟩ | ⟨p, h, -⟩) <;> cases h
    · rintro p c i h; cases h; rfl
  | known d p =>
    obtain ⟨hc, hi, rfl⟩ := class_of_known h
    by_cases hm : d = monVer_
    · subst hm
      have hnp : monVer_ ≠ navPvt_ := by decide +kernel
      have hnu : monVer_ ≠ cfgPrtUart_ := by decide +kernel
      have hc : cls = 0x0a := hc
      have hi : id = 0x04 := hi
      subst hc hi
      obtain ⟨sw, hw, ext, kvs, h1, -⟩ := c64_monVer hM h
      have hh : Cli.handle M (.known monVer_ payload) = Cli.handleMonVer M payload := by
        unfold Cli.handle
        simp only [if_true]
      rw [hh]
      refine ⟨?_, fun _ => ⟨_, h1, ?_, ?_, ?_, nofun⟩⟩
      · rintro (⟨p, h, -⟩ | ⟨p, h, -⟩)
        · simp only [PacketRef.known.injEq] at h; exact absurd h.1 hnp
        · simp only [PacketRef.known.injEq] at h; exact absurd h.1 hnu
      · intro d p hq _ h; simp only [PacketRef.known.injEq] at hq; exact absurd hq.1.symm h
      · intro p hq; simp only [PacketRef.known.injEq] at hq; exact absurd hq.1 hnp
      · intro p hq; simp only [PacketRef.known.injEq, true_and] at hq; rw [← hq, h1]
    · by_cases hp : d = navPvt_
      · subst hp
        have hnu : navPvt_ ≠ cfgPrtUart_ := by decide +kernel
        have hc : cls = 0x01 := hc
        have hi : id = 0x07 := hi
        subst hc hi
        obtain ⟨h1, h2⟩ := c64_navPvt ((navPvt_delivered payload).mp h)
        have hh : Cli.handle M (.known navPvt_ payload) = some (Cli.handleNavPvt payload) := by
          unfold Cli.handle
          simp only [hm, if_false, if_true]
        rw [hh]
        constructor
        · rintro (⟨p, h, h3, h4⟩ | ⟨p, h, -⟩)
          · simp only [PacketRef.known.injEq, true_and] at h
            subst h
            obtain ⟨q, hq⟩ := h1 h3 h4
            exact ⟨q, by rw [hq]⟩
          · simp only [PacketRef.known.injEq] at h; exact absurd h.1 hnu
        · intro hnf
          obtain ⟨out, h3, -⟩ := h2 fun ht => Classical.byContradiction fun hc =>
            hnf (.inl ⟨payload, rfl, ht, hc⟩)
          refine ⟨out, by rw [h3], ?_, ?_, ?_, nofun⟩
          · intro d p hq h; simp only [PacketRef.known.injEq] at hq; exact absurd hq.1.symm h
          · intro p hq; simp only [PacketRef.known.injEq, true_and] at hq; rw [← hq, h3]
          · intro p hq; simp only [PacketRef.known.injEq] at hq; exact absurd hq.1 hm
      · have hh : Cli.handle M (.known d payload) = some (do return [.packet (← d.debugFields payload)]) := by
          unfold Cli.handle
          simp only [hm, hp, if_false]
        rw [hh]
        constructor
        · rintro (⟨p, h, -⟩ | ⟨p, hq, h3⟩)
          · simp only [PacketRef.known.injEq] at h; exact absurd h.1 hp
          · simp only [PacketRef.known.injEq] at hq
            obtain ⟨rfl, rfl⟩ := hq
            obtain ⟨-, -, e, he⟩ := c25_uart_mode_exact h h3
            exact ⟨e, by rw [he]; rfl⟩
        · intro hnf
          obtain ⟨kvs, h1, h2⟩ := debug_entries h (fun hd => Classical.byContradiction fun hc =>
            hnf (.inr ⟨payload, by rw [hd], hc⟩))
          refine ⟨[.packet kvs], by rw [h1]; rfl, ?_, ?_, ?_, nofun⟩
          · intro d' p' hq _ _
            simp only [PacketRef.known.injEq] at hq
            obtain ⟨rfl, rfl⟩ := hq
            exact ⟨kvs, rfl, h2⟩
          · intro p hq; simp only [PacketRef.known.injEq] at hq; exact absurd hq.1 hp
          · intro p hq; simp only [PacketRef.known.injEq] at hq; exact absurd hq.1 hm

/-- The fatal packets are those of fatal frames. -/
theorem fatal_iff {cls id : UInt8} {payload : Bytes} {q : PacketRef}
    (h : matchPacket cls id payload = .ok (.ok q)) :
    Fatal q ↔ FatalFrame (.packet cls id payload) := by
  constructor
  · rintro (⟨p, rfl, h1, h2⟩ | ⟨p, rfl, h1⟩)
    · obtain ⟨hc, hi, rfl⟩ := class_of_known h
      have hc : cls = 0x01 := hc
      have hi : id = 0x07 := hi
      subst hc hi
      exact .inl ⟨_, rfl, (navPvt_delivered _).mp h, h1, h2⟩
    · obtain ⟨hc, hi, rfl⟩ := class_of_known h
      have hc : cls = 0x06 := hc
      have hi : id = 0x00 := hi
      subst hc hi
      obtain ⟨h3, h4⟩ := (cfgPrtUart_delivered _).mp h
      exact .inr ⟨_, rfl, h3, h4, h1⟩
  · rintro (⟨p, he, h1, h2, h3⟩ | ⟨p, he, h1, h2, h3⟩)
    · injection he with e1 e2 e3
      subst e1 e2 e3
      rw [(navPvt_delivered _).mpr h1] at h
      simp only [Except.ok.injEq] at h
      exact .inl ⟨_, h.symm, h2, h3⟩
    · injection he with e1 e2 e3
      subst e1 e2 e3
      rw [(cfgPrtUart_delivered _).mpr ⟨h1, h2⟩] at h
      simp only [Except.ok.injEq] at h
      exact .inr ⟨_, h.symm, h3⟩

/-- What the handler prints for the packets of some reports: one piece for each packet, in order. -/
def PrintedFor (M : Nat) (evs : List Ev) (out : List Cli.Printed) : Prop :=
  ∃ outs, List.Forall₂ (fun q o => Cli.handle M q = some (.ok o)) (handed crateDispatch evs) outs ∧
    out = outs.flatten

theorem callback_event {M : Nat} {ev : Ev} (hb : ∀ c i p, ev = .packet c i p → p.length ≤ M) :
    match (report crateDispatch.matchPacket ev).toOption with
    | none => ¬ FatalFrame ev
    | some q => (FatalFrame ev → ∀ out, ∃ e, Cli.callback M q out = .error e) ∧
        (¬ FatalFrame ev → ∃ o, Cli.handle M q = some (.ok o) ∧
          ∀ out, Cli.callback M q out = .ok (out ++ o)) := by
  cases ev with
  | badChecksum a b => rintro (⟨p, h, -⟩ | ⟨p, h, -⟩) <;> cases h
  | tooLarge n => rintro (⟨p, h, -⟩ | ⟨p, h, -⟩) <;> cases h
  | packet c i payload =>
    obtain ⟨q, h1, -⟩ := c23_dispatch c i payload
    have h1' := h1
    rw [crateDispatch_eq] at h1
    simp only [Except.ok.injEq] at h1
    simp only [report, h1, Except.toOption]
    obtain ⟨h2, h3⟩ := c64_handler (hb c i payload rfl) h1'
    rw [fatal_iff h1'] at h2 h3
    constructor
    · intro hf out
      obtain ⟨e, he⟩ := h2 hf
      exact ⟨e, by simp only [Cli.callback, he]⟩
    · intro hf
      obtain ⟨o, ho, -⟩ := h3 hf
      exact ⟨o, ho, fun out => by simp only [Cli.callback, ho]⟩

/-- The handler on the packets of some reports. -/
theorem callback_fold {M : Nat} (evs : List Ev) (hb : ∀ c i p, Ev.packet c i p ∈ evs → p.length ≤ M)
    (out : List Cli.Printed) :
    ((∃ ev ∈ evs, FatalFrame ev) → ∃ e, (handed crateDispatch evs).foldlM
        (fun s p => Cli.callback M p s) out = .error e) ∧
    ((∀ ev ∈ evs, ¬ FatalFrame ev) → ∃ o, PrintedFor M evs o ∧ (handed crateDispatch evs).foldlM
        (fun s p => Cli.callback M p s) out = .ok (out ++ o)) := by
  induction evs generalizing out with
  | nil =>
    refine ⟨?_, fun _ => ⟨[], ⟨[], .nil, rfl⟩, ?_⟩⟩
    · rintro ⟨ev, h, -⟩; cases h
    · simp [handed, pure, Except.pure]
  | cons ev evs ih =>
    have h := callback_event (M := M) (ev := ev) (fun c i p he => hb c i p (by simp [he]))
    have ih := ih (fun c i p hp => hb c i p (by simp [hp]))
    unfold PrintedFor
    unfold PrintedFor at ih
    unfold handed at ih ⊢
    rw [List.filterMap_cons]
    split at h
    · rename_i hn
      simp only [hn]
      constructor
      · rintro ⟨e, he, hf⟩
        rcases List.mem_cons.mp he with rfl | he
        · exact absurd hf h
        · exact (ih out).1 ⟨e, he, hf⟩
      · intro hf
        exact (ih out).2 (fun e he => hf e (by simp [he]))
    · rename_i q hq
      simp only [hq, List.foldlM_cons]
      obtain ⟨h1, h2⟩ := h
      by_cases hev : FatalFrame ev
      · obtain ⟨e, he⟩ := h1 hev out
        refine ⟨fun _ => ⟨e, by rw [he]; rfl⟩, fun hc => absurd hev (hc ev (by simp))⟩
      · obtain ⟨o, ho, hcb⟩ := h2 hev
        rw [hcb]
        constructor
        · rintro ⟨e, he, hf⟩
          rcases List.mem_cons.mp he with rfl | he
          · exact absurd hf hev
          · exact (ih _).1 ⟨e, he, hf⟩
        · intro hf
          obtain ⟨o', ⟨outs, ho1, ho2⟩, ho3⟩ := (ih (out ++ o)).2 (fun e he => hf e (by simp [he]))
          refine ⟨o ++ o', ⟨o :: outs, .cons ho ho1, by rw [ho2]; rfl⟩, ?_⟩
          rw [Except.ok_bind, ho3, List.append_assoc]

/-- A fatal frame is in the stream `s`. -/
def FatalIn (s : Bytes) : Prop :=
  ∃ ev ∈ (decode crateDispatch.maxPayloadLen s).1, FatalFrame ev

theorem fatalIn_append {s u : Bytes} :
    FatalIn (s ++ u) ↔ FatalIn s ∨ FatalIn ((decode crateDispatch.maxPayloadLen s).2 ++ u) := by
  unfold FatalIn
  rw [decode_append]
  simp [or_and_right, exists_or]

/-- The handler on the packets of a stream. -/
theorem callback_stream {M : Nat} (hM : 8176 + 8 + 1240 ≤ M / 2) (s : Bytes)
    (out : List Cli.Printed) :
    (FatalIn s → ∃ e, (handed crateDispatch (decode crateDispatch.maxPayloadLen s).1).foldlM
        (fun s p => Cli.callback M p s) out = .error e) ∧
    (¬ FatalIn s → ∃ o, PrintedFor M (decode crateDispatch.maxPayloadLen s).1 o ∧
      (handed crateDispatch (decode crateDispatch.maxPayloadLen s).1).foldlM
        (fun s p => Cli.callback M p s) out = .ok (out ++ o)) := by
  have h := callback_fold (M := M) (decode crateDispatch.maxPayloadLen s).1
    (fun c i p hp => by have := decode_bounded _ _ hp; rw [crate_max] at this; omega) out
  refine ⟨h.1, fun hf => h.2 fun ev he hc => hf ⟨ev, he, hc⟩⟩

/-- **C64** The main loop ends, by a panic, when the port fails and when a fatal frame has arrived,
whatever else was received and however it was cut into reads and pauses (provided that no read returned
more bytes than it was asked for). -/
theorem c64_crashes (hM : 8176 + 8 + 1240 ≤ M / 2) (port : Port E) {dev : Device M} {b : Bytes}
    (hb : Holds crateDispatch.maxPayloadLen dev b) (n : Nat)
    (hp : ∀ j < n, Some1240 (port (dev.reads + j)) ∨ Quiet (port (dev.reads + j)))
    (hf : (∃ e, port (dev.reads + n) = .failed e) ∨ FatalIn (b ++ received port dev.reads n))
    (out : List Cli.Printed) :
    ∃ q, Cli.mainLoop M port dev out = some (.error q) := by
  have hM' : crateDispatch.maxPayloadLen + 8 + 1240 ≤ M / 2 := by rw [crate_max]; exact hM
  induction n using Nat.strongRecOn generalizing dev b out with
  | ind n ih =>
    have stop : ∀ {q}, dev.update M crateDispatch port (Cli.callback M) out = some (.error q) →
        Cli.mainLoop M port dev out = some (.error q) := by
      intro q h
      rw [Cli.mainLoop.eq_def, h]
    rcases first_pause port dev.reads n hp with h1 | ⟨k, hk, h1, h2⟩
    · have hu := c62_update hM' port (Cli.callback M) hb n h1 out
      obtain ⟨hs1, hs2⟩ := callback_stream hM (b ++ received port dev.reads n) out
      by_cases hfat : FatalIn (b ++ received port dev.reads n)
      · obtain ⟨q, hq⟩ := hs1 hfat
        simp only [hq] at hu
        exact ⟨q, stop hu⟩
      · obtain ⟨o, -, ho⟩ := hs2 hfat
        simp only [ho] at hu
        obtain ⟨dev', -, -, -, hu⟩ := hu
        obtain ⟨e, he⟩ := hf.resolve_right hfat
        exact ⟨.unwrap, by rw [Cli.mainLoop.eq_def, hu e he]⟩
    · have hu := c62_update hM' port (Cli.callback M) hb k h1 out
      obtain ⟨hs1, hs2⟩ := callback_stream hM (b ++ received port dev.reads k) out
      by_cases hfat : FatalIn (b ++ received port dev.reads k)
      · obtain ⟨q, hq⟩ := hs1 hfat
        simp only [hq] at hu
        exact ⟨q, stop hu⟩
      · obtain ⟨o, -, ho⟩ := hs2 hfat
        simp only [ho] at hu
        obtain ⟨dev', hh, hr, hu, -⟩ := hu
        obtain ⟨m, rfl⟩ : ∃ m, n = k + 1 + m := ⟨n - (k + 1), by omega⟩
        have hidx : ∀ j, dev'.reads + j = dev.reads + (k + 1 + j) := fun j => by omega
        obtain ⟨q, hq⟩ := ih m (by omega) hh (fun j hj => by
            rw [hidx]; exact hp (k + 1 + j) (by omega)) (by
            rw [hidx]
            refine hf.imp id fun h => ?_
            rw [received_append, received_last (.inl h2), ← List.append_assoc, fatalIn_append] at h
            rw [hr]
            exact h.resolve_left hfat) (out ++ o)
        exact ⟨q, by rw [Cli.mainLoop.eq_def, hu h2]; exact hq⟩

/-- **C64** Conversely, if the main loop ends at all (it can only panic), then the port failed, or a
fatal frame has arrived, or a read returned more bytes than it was asked for. -/
theorem c64_stops (hM : 8176 + 8 + 1240 ≤ M / 2) (port : Port E) {dev : Device M} {b : Bytes}
    (hb : Holds crateDispatch.maxPayloadLen dev b) {out : List Cli.Printed} {r : R Empty}
    (h : Cli.mainLoop M port dev out = some r) :
    ∃ n, (∀ j < n, Some1240 (port (dev.reads + j)) ∨ Quiet (port (dev.reads + j))) ∧
      ((∃ e, port (dev.reads + n) = .failed e) ∨ FatalIn (b ++ received port dev.reads n) ∨
        ∃ bs, port (dev.reads + n) = .data bs ∧ 1240 < bs.length) := by
  have hM' : crateDispatch.maxPayloadLen + 8 + 1240 ≤ M / 2 := by rw [crate_max]; exact hM
  have key := Cli.mainLoop.partial_correctness M port
    (motive := fun dev out r => ∀ b, Holds crateDispatch.maxPayloadLen dev b →
      ∃ n, (∀ j < n, Some1240 (port (dev.reads + j)) ∨ Quiet (port (dev.reads + j))) ∧
      ((∃ e, port (dev.reads + n) = .failed e) ∨ FatalIn (b ++ received port dev.reads n) ∨
        ∃ bs, port (dev.reads + n) = .data bs ∧ 1240 < bs.length)) (by
    intro ml ih dev out r hr b hb
    match hu : dev.update M crateDispatch port (Cli.callback M) out with
    | none => rw [hu] at hr; cases hr
    | some (.error q) =>
      obtain ⟨n, h1, h2⟩ := c62_panics hM' port (Cli.callback M) hb hu
      refine ⟨n, fun j hj => .inl (h1 j hj), .inr ?_⟩
      refine h2.imp (fun h2 => Classical.byContradiction fun hc => ?_) id
      obtain ⟨o, -, ho⟩ := (callback_stream hM (b ++ received port dev.reads n) out).2 hc
      rw [ho] at h2
      cases h2
    | some (.ok (.error e, out', dev')) =>
      obtain ⟨n, -, h1, h2, -⟩ := c62_returns hM' port (Cli.callback M) hb hu
      refine ⟨n, fun j hj => .inl (h1 j hj), .inl ?_⟩
      rcases h2 with ⟨h2, -⟩ | ⟨e', -, h2⟩
      · cases h2
      · exact ⟨e', h2⟩
    | some (.ok (.ok (), out', dev')) =>
      obtain ⟨n, hr', h1, h2, -, hh⟩ := c62_returns hM' port (Cli.callback M) hb hu
      have hq : Quiet (port (dev.reads + n)) := by
        rcases h2 with ⟨-, h2⟩ | ⟨e', h2, -⟩
        · exact h2
        · cases h2
      rw [hu] at hr
      simp only at hr
      obtain ⟨m, k1, k2⟩ := ih _ _ _ hr _ hh
      have hidx : ∀ j, dev'.reads + j = dev.reads + (n + 1 + j) := fun j => by omega
      refine ⟨n + 1 + m, ?_, ?_⟩
      · intro j hj
        rcases Nat.lt_trichotomy j n with hlt | rfl | hgt
        · exact .inl (h1 j hlt)
        · exact .inr hq
        · have := k1 (j - (n + 1)) (by omega)
          rw [hidx, show n + 1 + (j - (n + 1)) = j by omega] at this
          exact this
      · rw [hidx] at k2
        rcases k2 with k2 | k2 | k2
        · exact .inl k2
        · refine .inr (.inl ?_)
          rw [received_append, received_last (.inl hq), ← List.append_assoc, fatalIn_append]
          rw [hr'] at k2
          exact .inr k2
        · exact .inr (.inr k2))
  exact key dev out r h b hb

/-- **C64** As long as the port does not fail and no fatal frame arrives, the program keeps running. -/
theorem c64_runs (hM : 8176 + 8 + 1240 ≤ M / 2) (port : Port E) {dev : Device M} {b : Bytes}
    (hb : Holds crateDispatch.maxPayloadLen dev b)
    (hp : ∀ j, Some1240 (port (dev.reads + j)) ∨ Quiet (port (dev.reads + j)))
    (hf : ∀ n, ¬ FatalIn (b ++ received port dev.reads n)) (out : List Cli.Printed) :
    Cli.mainLoop M port dev out = none := by
  match h : Cli.mainLoop M port dev out with
  | none => rfl
  | some r =>
    obtain ⟨n, -, ⟨e, h1⟩ | h1 | ⟨bs, h1, h2⟩⟩ := c64_stops hM port hb h
    · rcases hp n with hq | hq
      · exact absurd h1 ((some1240_not_quiet hq).2 e)
      · exact absurd h1 (no_failed_of_quiet hq e)
    · exact absurd h1 (hf n)
    · rcases hp n with ⟨bs', hq, -, h3⟩ | hq | hq <;> rw [h1] at hq <;> cases hq
      · omega
      · simp at h2

/-- The hypotheses of `c64_runs` for a line that is always quiet. -/
example : (∀ j, Some1240 ((fun _ => .timedOut : Port Unit) j) ∨ Quiet ((fun _ => .timedOut : Port Unit) j)) ∧
    ∀ n, ¬ FatalIn ([] ++ received (fun _ => .timedOut : Port Unit) 0 n) := by
  refine ⟨fun _ => .inr (.inl rfl), fun n => ?_⟩
  have h0 : ∀ n i, received (fun _ => .timedOut : Port Unit) i n = [] := by
    intro n
    induction n with
    | zero => intro i; rfl
    | succ n ih => intro i; simp [received, portBytes, ih]
  rw [h0]
  rintro ⟨ev, he, -⟩
  rw [show ([] ++ [] : Bytes) = [] from rfl, decode_wait (by rw [scan.eq_def])] at he
  cases he

/-- **C64** What has been printed after any number of rounds of the main loop: for every packet of the
received stream what `handle` prints, in the order of the stream, nothing twice and nothing else. -/
theorem c64_printed (hM : 8176 + 8 + 1240 ≤ M / 2) (port : Port E) (k : Nat) {dev : Device M}
    {b : Bytes} (hb : Holds crateDispatch.maxPayloadLen dev b) {out out' : List Cli.Printed} {ress dev'}
    (h : Device.updates M crateDispatch port (Cli.callback M) k dev out =
      some (.ok (ress, out', dev'))) :
    ∃ n o, dev'.reads = dev.reads + n ∧ out' = out ++ o ∧
      PrintedFor M (decode crateDispatch.maxPayloadLen (b ++ received port dev.reads n)).1 o := by
  have hM' : crateDispatch.maxPayloadLen + 8 + 1240 ≤ M / 2 := by rw [crate_max]; exact hM
  obtain ⟨n, h1, -, h2, -⟩ := c62_calls hM' port (Cli.callback M) k hb h
  obtain ⟨hs1, hs2⟩ := callback_stream hM (b ++ received port dev.reads n) out
  by_cases hf : FatalIn (b ++ received port dev.reads n)
  · obtain ⟨e, he⟩ := hs1 hf
    rw [he] at h2; cases h2
  · obtain ⟨o, ho1, ho2⟩ := hs2 hf
    rw [ho2] at h2
    cases h2
    exact ⟨n, o, h1, rfl, ho1⟩

/-! ## C65 The configuration that is sent -/

/-- The frame that is built for CFG-PRT. -/
theorem cfgPrt_frame {port : Variant} (hport : port ∈ uartPortId_.allVariants) (d : DataBits) (p : Parity)
    (s : Cli.SerialStopBits) (baud : UInt32) {x y : Nat}
    (hx : x ∈ [1, 2, 4, 0x20, 3, 5, 0x21, 6, 0x22, 7, 0x23]) (hy : y ∈ [1, 2, 0x20, 3, 0x21, 0x22, 0x23]) :
    cfgPrtUart_.intoPacketBytes
        [.enum port, .raw (.u8 0), .raw (.u16 0), .uartMode ⟨d, p, Cli.ubloxStopbits s⟩, .raw (.u32 baud),
          .flags x, .flags y, .raw (.u16 0), .raw (.u16 0)] =
      .ok (frame 0x06 0x00 (cfgPrtPayload port.2 (dataBitsCode d) (parityCode p)
        (stopBitsCode (Cli.ubloxStopbits s)) baud.toNat x y)) := by
  refine (c18_any_declaration (d := cfgPrtUart_) (by decide +kernel) (by decide +kernel)
    (by decide +kernel) (blocks := [[port.2], [0], [0, 0],
      natLe 4 (dataBitsCode d * 2 ^ 6 + parityCode p * 2 ^ 9 + (stopBitsCode (Cli.ubloxStopbits s)) * 2 ^ 12),
      natLe 4 baud.toNat, natLe 2 x, natLe 2 y, [0, 0], [0, 0]]) rfl rfl ?_).trans ?_
  · intro i f v k hf hv hk
    match i, hf, hv, hk with
    | 0, hf, hv, hk =>
      cases hf; cases hv; cases hk
      refine ⟨?_, rfl⟩
      have : uartPortId_.allVariants.contains port = true := by simpa using hport
      simp only [FieldDesc.bytes, Conv.intoRaw, this]
      rfl
    | 1, hf, hv, hk => cases hf; cases hv; cases hk; exact ⟨rfl, rfl⟩
    | 2, hf, hv, hk => cases hf; cases hv; cases hk; exact ⟨rfl, rfl⟩
    | 3, hf, hv, hk =>
      cases hf; cases hv; cases hk
      cases d <;> cases p <;> cases s <;> exact ⟨by decide +kernel, by decide +kernel⟩
    | 4, hf, hv, hk =>
      cases hf; cases hv; cases hk
      refine ⟨?_, natLe_length _ _⟩
      rw [← u32ToLe_eq]; rfl
    | 5, hf, hv, hk =>
      cases hf; cases hv; cases hk
      refine ⟨?_, natLe_length _ _⟩
      exact (by decide +kernel : ∀ x ∈ [1, 2, 4, 0x20, 3, 5, 0x21, 6, 0x22, 7, 0x23],
        FieldDesc.bytes { name := "in_proto_mask", ty := .u16, map := some (.flags inProtoMask_) }
          (.flags x) = .ok (natLe 2 x)) x hx
    | 6, hf, hv, hk =>
      cases hf; cases hv; cases hk
      refine ⟨?_, natLe_length _ _⟩
      exact (by decide +kernel : ∀ x ∈ [1, 2, 0x20, 3, 0x21, 0x22, 0x23],
        FieldDesc.bytes { name := "out_proto_mask", ty := .u16, map := some (.flags outProtoMask_) }
          (.flags x) = .ok (natLe 2 x)) y hy
    | 7, hf, hv, hk => cases hf; cases hv; cases hk; exact ⟨rfl, rfl⟩
    | 8, hf, hv, hk => cases hf; cases hv; cases hk; exact ⟨rfl, rfl⟩
    | n + 9, hf, hv, hk => cases hv
  · simp [cfgPrtPayload]; rfl

theorem inProto_cases (a : Cli.Args) :
    (a.inRtcm = true ∧ a.inRtcm3 = true ∧ Cli.inProto a = none) ∨
    (¬ (a.inRtcm = true ∧ a.inRtcm3 = true) ∧ Cli.inProto a = some (askedIn a) ∧
      askedIn a ∈ [1, 2, 4, 0x20, 3, 5, 0x21, 6, 0x22, 7, 0x23]) := by
  unfold Cli.inProto askedIn
  cases a.inUblox <;> cases a.inNmea <;> cases a.inRtcm <;> cases a.inRtcm3 <;> decide

theorem outProto_cases (a : Cli.Args) :
    Cli.outProto a = askedOut a ∧ askedOut a ∈ [1, 2, 0x20, 3, 0x21, 0x22, 0x23] := by
  unfold Cli.outProto askedOut
  cases a.outUblox <;> cases a.outNmea <;> cases a.outRtcm3 <;> decide

/-- The code of the parity that is sent: even for odd and odd for even. -/
def sentParity (a : Cli.Args) : Nat :=
  askedParity (if a.parity = some "odd" then some "even" else if a.parity = some "even" then some "odd"
    else a.parity)

theorem parity_code (a : Cli.Args) : parityCode (Cli.ubloxParity (Cli.parity a)) = sentParity a := by
  unfold Cli.parity sentParity askedParity
  by_cases h1 : a.parity = some "odd"
  · simp [h1, Cli.ubloxParity, parityCode]
  · by_cases h2 : a.parity = some "even"
    · simp [h2, Cli.ubloxParity, parityCode]
    · simp [h1, h2, Cli.ubloxParity, parityCode]

theorem dataBits_cases (a : Cli.Args) :
    (askedCharLen a = none ∧ Cli.dataBits a = none) ∨
    ∃ d, Cli.dataBits a = some d ∧ askedCharLen a = some (dataBitsCode (Cli.ubloxDatabits d)) := by
  unfold Cli.dataBits askedCharLen
  by_cases h1 : a.dataBits = some "7"
  · exact .inr ⟨.seven, by simp [h1], by simp [h1, Cli.ubloxDatabits, dataBitsCode]⟩
  · by_cases h2 : a.dataBits = some "8"
    · exact .inr ⟨.eight, by simp [h2], by simp [h2, Cli.ubloxDatabits, dataBitsCode]⟩
    · exact .inl ⟨by simp [h1, h2], by simp [h1, h2]⟩

theorem port_cases (a : Cli.Args) :
    (askedPort a = none ∧ Cli.portId a = none) ∨
    ∃ v, Cli.portId a = some v ∧ askedPort a = some v.2 ∧ v ∈ uartPortId_.allVariants := by
  unfold Cli.portId askedPort
  by_cases h1 : a.port = some "usb"
  · exact .inr ⟨("Usb", 3), by simp [h1], by simp [h1], by decide +kernel⟩
  · by_cases h2 : a.port = some "uart1"
    · exact .inr ⟨("Uart1", 1), by simp [h2], by simp [h2], by decide +kernel⟩
    · by_cases h3 : a.port = some "uart2"
      · exact .inr ⟨("Uart2", 2), by simp [h3], by simp [h3], by decide +kernel⟩
      · exact .inl ⟨by simp [h1, h2, h3], by simp [h1, h2, h3]⟩

theorem stop_cases (a : Cli.Args) :
    stopBitsCode (Cli.ubloxStopbits (Cli.stopBits a)) = askedStop a := by
  unfold Cli.stopBits askedStop
  by_cases h : a.stopBits = some "2" <;> simp [h, Cli.ubloxStopbits, stopBitsCode]

/-- **C65** (what is sent for the subcommand `configure`, in a release build) Unless 7 or 8 data bits were
asked for, or if both versions of RTCM were, the program ends before anything is sent.  For a port that is
not known nothing is sent.  Otherwise one CFG-PRT frame is sent: port, data bits, stop bits and protocols
are those that were asked for, but the baud rate is always 9600, and even and odd parity are exchanged. -/
theorem c65_sends (a : Cli.Args) :
    (¬ Sensible a → Cli.configure false a = .ok none) ∧
    (Sensible a → askedPort a = none → Cli.configure false a = .ok (some none)) ∧
    (∀ port charLen, Sensible a → askedPort a = some port → askedCharLen a = some charLen →
      Cli.configure false a = .ok (some (some (settingsFrame a port charLen (sentParity a) 9600)))) := by
  have hb : a.getU32 false "baud" = .ok none := by
    simp [Cli.Args.getU32]
  unfold Cli.configure
  simp only [hb, Except.ok_bind]
  unfold Sensible
  rcases dataBits_cases a with ⟨d1, d2⟩ | ⟨d, d1, d2⟩
  · simp only [d1, d2]
    exact ⟨fun _ => rfl, by simp, by simp⟩
  · simp only [d1, d2]
    rcases inProto_cases a with ⟨i1, i2, i3⟩ | ⟨i1, i2, i3⟩
    · simp only [i1, i2, i3]
      exact ⟨fun _ => rfl, by simp, by simp⟩
    · simp only [i2]
      refine ⟨fun h => absurd ⟨rfl, i1⟩ h, ?_, ?_⟩
      · intro _ hp
        rcases port_cases a with ⟨p1, p2⟩ | ⟨v, p1, p2, p3⟩
        · simp only [p2]; rfl
        · rw [p2] at hp; cases hp
      · intro port charLen _ hp hc
        rcases port_cases a with ⟨p1, p2⟩ | ⟨v, p1, p2, p3⟩
        · rw [p1] at hp; cases hp
        · rw [p2] at hp; cases hp; cases hc
          obtain ⟨o1, o2⟩ := outProto_cases a
          simp only [p1, o1]
          rw [cfgPrt_frame p3 _ _ _ _ i3 o2, parity_code, stop_cases]
          rfl

/-- **C65** The settings are sent as they were asked for, if neither even nor odd parity and no other baud
rate than 9600 is asked for.  Full statement: the same without these two conditions on `a`; it is
false, see `c65_parity_exchanged` and `c65_baud_ignored`. -/
theorem c65_as_asked_partial (a : Cli.Args) {port : UInt8} {charLen : Nat} (hs : Sensible a)
    (hp : askedPort a = some port) (hc : askedCharLen a = some charLen)
    (hpar : a.parity ≠ some "even" ∧ a.parity ≠ some "odd")
    (hbaud : a.cfgBaud.getD 9600 = 9600) :
    Cli.configure false a = .ok (some (some
      (settingsFrame a port charLen (askedParity a.parity) (a.cfgBaud.getD 9600).toNat))) := by
  rw [(c65_sends a).2.2 port charLen hs hp hc, hbaud]
  simp [sentParity, hpar.1, hpar.2]

/-- The arguments for UART 1, 8 data bits, 1 stop bit, UBX and RTCM3 in, UBX out. -/
def demoArgs (parity : Option String) (baud : UInt32) : Cli.Args :=
  ⟨some "uart1", some baud, some "1", some "8", parity, true, false, false, true, true, false, false⟩

example : Sensible (demoArgs none 9600) ∧ askedPort (demoArgs none 9600) = some 1 ∧
    askedCharLen (demoArgs none 9600) = some 3 ∧ (demoArgs none 9600).parity ≠ some "even" ∧
    (demoArgs none 9600).parity ≠ some "odd" ∧ (demoArgs none 9600).cfgBaud.getD 9600 = 9600 ∧
    settingsFrame (demoArgs none 9600) 1 3 4 9600 =
      frame 6 0 [1, 0, 0, 0, 0xc0, 0x08, 0, 0, 0x80, 0x25, 0, 0, 0x21, 0, 1, 0, 0, 0, 0, 0] := by
  decide +kernel

/-- Frames with different settings are different. -/
theorem settingsFrame_inj {a : Cli.Args} {port : UInt8} {c p b p' b' : Nat}
    (hc : c < 4) (hp : p < 8) (hp' : p' < 8) (hb : b < 2 ^ 32) (hb' : b' < 2 ^ 32)
    (h : settingsFrame a port c p b = settingsFrame a port c p' b') : p = p' ∧ b = b' := by
  have hlen : ∀ p b, (cfgPrtPayload port c p (askedStop a) b (askedIn a) (askedOut a)).length = 20 := by
    intro p b
    simp [cfgPrtPayload, natLe_length]
  have hd := congrArg (fun l => (l.drop 6).take 20) h
  have htake : ∀ p b, ((settingsFrame a port c p b).drop 6).take 20 =
      cfgPrtPayload port c p (askedStop a) b (askedIn a) (askedOut a) := by
    intro p b
    have e : settingsFrame a port c p b = ([0xb5, 0x62, 6, 0, 20, 0] : Bytes) ++
        (cfgPrtPayload port c p (askedStop a) b (askedIn a) (askedOut a) ++
          [ckA (body 6 0 (cfgPrtPayload port c p (askedStop a) b (askedIn a) (askedOut a))),
            ckB (body 6 0 (cfgPrtPayload port c p (askedStop a) b (askedIn a) (askedOut a)))]) := by
      unfold settingsFrame frame
      have : ∀ q : Bytes, q.length = 20 → body 6 0 q = [6, 0, 20, 0] ++ q := by
        intro q hq; unfold body; rw [hq]; rfl
      rw [this _ (hlen p b)]
      simp
    rw [e]
    exact List.take_left' (hlen p b)
  simp only [htake] at hd
  have hs : askedStop a ≤ 2 := by unfold askedStop; split <;> omega
  have hm := congrArg (fun l => leNat ((l.drop 4).take 4)) hd
  have hbd := congrArg (fun l => leNat ((l.drop 8).take 4)) hd
  have e1 : ∀ p b, ((cfgPrtPayload port c p (askedStop a) b (askedIn a) (askedOut a)).drop 4).take 4 =
      natLe 4 (c * 2 ^ 6 + p * 2 ^ 9 + askedStop a * 2 ^ 12) := by
    intro p b
    unfold cfgPrtPayload
    simp only [List.append_assoc]
    exact List.take_left' (natLe_length _ _)
  have e2 : ∀ p b, ((cfgPrtPayload port c p (askedStop a) b (askedIn a) (askedOut a)).drop 8).take 4 =
      natLe 4 b := by
    intro p b
    unfold cfgPrtPayload
    simp only [List.append_assoc]
    rw [← List.append_assoc, List.drop_left' (by simp [natLe_length]), List.take_left' (natLe_length _ _)]
  simp only [e1, leNat_natLe] at hm
  simp only [e2, leNat_natLe] at hbd
  omega

/-- **C65** (violation) Even parity is sent if odd parity is asked for, and the other way round. -/
theorem c65_parity_exchanged (a : Cli.Args) {port : UInt8} {charLen : Nat} (hs : Sensible a)
    (hp : askedPort a = some port) (hc : askedCharLen a = some charLen) :
    (a.parity = some "odd" → Cli.configure false a =
      .ok (some (some (settingsFrame a port charLen (askedParity (some "even")) 9600)))) ∧
    (a.parity = some "even" → Cli.configure false a =
      .ok (some (some (settingsFrame a port charLen (askedParity (some "odd")) 9600)))) := by
  rw [(c65_sends a).2.2 port charLen hs hp hc]
  constructor <;> intro h <;> simp [sentParity, h]

/-- **C65** (violation) In a release build the baud rate that is asked for makes no difference; in a build
with debug assertions the subcommand always panics. -/
theorem c65_baud_ignored (a : Cli.Args) (baud : Option UInt32) :
    Cli.configure false { a with cfgBaud := baud } = Cli.configure false a ∧
    ∃ q, Cli.configure true a = .error q :=
  ⟨rfl, .explicit, rfl⟩

/-- **C65** (violation) Therefore the frame that was asked for is not sent if another baud rate than 9600
or one of the parities is asked for. -/
theorem c65_not_as_asked (a : Cli.Args) {port : UInt8} {charLen : Nat} (hs : Sensible a)
    (hp : askedPort a = some port) (hc : askedCharLen a = some charLen)
    (h : a.parity = some "even" ∨ a.parity = some "odd" ∨ a.cfgBaud.getD 9600 ≠ 9600) :
    Cli.configure false a ≠ .ok (some (some
      (settingsFrame a port charLen (askedParity a.parity) (a.cfgBaud.getD 9600).toNat))) := by
  rw [(c65_sends a).2.2 port charLen hs hp hc]
  intro he
  simp only [Except.ok.injEq, Option.some.injEq] at he
  have hc4 : charLen < 4 := by
    rcases dataBits_cases a with ⟨d1, -⟩ | ⟨d, -, d2⟩
    · rw [d1] at hc; cases hc
    · rw [d2] at hc
      cases hc
      cases Cli.ubloxDatabits d <;> decide
  have hpar : ∀ x, askedParity x < 8 := by
    intro x; unfold askedParity; split <;> (try split) <;> omega
  obtain ⟨h1, h2⟩ := settingsFrame_inj hc4 (hpar _) (hpar _) (by omega)
    (UInt32.toNat_lt _) he
  rcases h with h | h | h
  · simp [sentParity, h, askedParity] at h1
  · simp [sentParity, h, askedParity] at h1
  · exact h (UInt32.toNat_inj.mp h2.symm)

example : Sensible (demoArgs (some "odd") 9600) ∧ askedPort (demoArgs (some "odd") 9600) = some 1 ∧
    askedCharLen (demoArgs (some "odd") 9600) = some 3 ∧
    Sensible (demoArgs none 115200) ∧ (demoArgs none 115200).cfgBaud.getD 9600 ≠ 9600 := by
  decide +kernel

/-- **C65** (violation) The same exchange of parities when the serial port is opened; all other settings
of the port are those that were asked for. -/
theorem c65_port_opened (a : Cli.MainArgs) :
    (Cli.portSettings a = none ↔ a.dataBits ≠ some "7" ∧ a.dataBits ≠ some "8") ∧
    ∀ s, Cli.portSettings a = some s →
      s.port = a.port ∧ s.baud = a.baud.getD 9600 ∧ (s.stopBits = .two ↔ a.stopBits = some "2") ∧
      (s.dataBits = .seven ↔ a.dataBits = some "7") ∧ (s.dataBits = .eight ↔ a.dataBits = some "8") ∧
      (s.parity = .even ↔ a.parity = some "odd") ∧ (s.parity = .odd ↔ a.parity = some "even") := by
  unfold Cli.portSettings
  by_cases h7 : a.dataBits = some "7"
  · simp only [h7, if_true]
    refine ⟨by simp, ?_⟩
    rintro s h
    cases h
    refine ⟨rfl, rfl, ?_, by simp, by simp, ?_, ?_⟩
    · split <;> simp [*]
    all_goals
      by_cases ho : a.parity = some "odd"
      · simp [ho]
      · by_cases he : a.parity = some "even" <;> simp [ho, he]
  · by_cases h8 : a.dataBits = some "8"
    · simp only [h8]
      refine ⟨by simp, ?_⟩
      rintro s h
      cases h
      refine ⟨rfl, rfl, ?_, by simp, by simp, ?_, ?_⟩
      · split <;> simp [*]
      all_goals
        by_cases ho : a.parity = some "odd"
        · simp [ho]
        · by_cases he : a.parity = some "even" <;> simp [ho, he]
    · simp [h7, h8]

/-- What has happened on the port until one acknowledgement was seen: from a device that holds `b`, after
`i` reads, to one that holds `b'`, after `j` reads. -/
def AckSeen (port : Port E) (t : PackDesc) (i : Nat) (b : Bytes) (j : Nat) (b' : Bytes) : Prop :=
  ∃ n, j = i + n + 1 ∧ Quiet (port (i + n)) ∧ Acked t (b ++ received port i n) ∧
    b' = (decode crateDispatch.maxPayloadLen (b ++ received port i n)).2

theorem expectAck_ok (hM : 8176 + 8 + 1240 ≤ M / 2) (port : Port E) (t : PackDesc) {dev dev' : Device M}
    {b : Bytes} (hb : Holds crateDispatch.maxPayloadLen dev b)
    (h : Cli.expectAck M port t dev = some (.ok dev')) :
    ∃ b', AckSeen port t dev.reads b dev'.reads b' ∧ Holds crateDispatch.maxPayloadLen dev' b' := by
  unfold Cli.expectAck at h
  split at h
  · cases h
  · cases h
  · cases h
  · rename_i dev'' hw
    cases h
    obtain ⟨n, h1, h2, -, h4⟩ := c63_returns hM port t hb hw
    rcases h2 with ⟨-, h2, h3⟩ | ⟨e, h2, -⟩
    · exact ⟨_, ⟨n, h1, h2, h3, rfl⟩, h4⟩
    · cases h2

theorem enable_ok (hM : 8176 + 8 + 1240 ≤ M / 2) (port : Port E) (failed : Nat → Bool)
    {dev dev' : Device M} {b : Bytes} (hb : Holds crateDispatch.maxPayloadLen dev b)
    {written : List Bytes} {st : Cli.Start}
    (h : Cli.enable M port failed dev written = some (.ok (st, dev'))) :
    st = .ready (written ++ [frame 0x06 0x01 [0x01, 0x07, 0, 1, 1, 1, 0, 0], frame 0x0a 0x04 []]) ∧
    failed written.length = false ∧ failed (written.length + 1) = false ∧
    ∃ b', AckSeen port cfgMsgAllPorts_ dev.reads b dev'.reads b' ∧
      Holds crateDispatch.maxPayloadLen dev' b' := by
  unfold Cli.enable at h
  rw [(c45_set_rate navPvt_ 0 [0, 1, 1, 1, 0, 0] rfl).2, Except.ok_bind, c40_request_for] at h
  unfold Cli.write at h
  by_cases hf : failed written.length = true
  · simp only [hf, if_true] at h; cases h
  · simp only [hf] at h
    split at h
    · cases h
    · rename_i w he
      cases he
      split at h
      · cases h
      · cases h
      · rename_i dev'' he
        by_cases hf2 : failed (written.length + 1) = true
        · simp [hf2] at h
          cases h
        · have hf1 : failed written.length = false := by simpa using hf
          have hf2 : failed (written.length + 1) = false := by simpa using hf2
          simp only [List.length_append, List.length_cons, List.length_nil, Nat.zero_add, hf2] at h
          obtain ⟨b', h1, h2⟩ := expectAck_ok hM port _ hb he
          simp only [Bool.false_eq_true, if_false, Except.ok_bind, Option.some.injEq] at h
          cases h
          exact ⟨by simp; exact ⟨rfl, rfl⟩, hf1, hf2, b', h1, h2⟩

/-- **C65** Without the subcommand: when the main loop is reached, exactly two frames have been written,
first CFG-MSG that enables NAV-PVT on UART 1, UART 2 and USB, then, after the acknowledgement for CFG-MSG
has been received, the request for MON-VER.  Nothing of what was received is lost on the way: the device
holds the undecoded rest of it. -/
theorem c65_start (hM : 8176 + 8 + 1240 ≤ M / 2) (port : Port E) (failed : Nat → Bool) (debug : Bool)
    {st : Cli.Start} {dev : Device M}
    (h : Cli.startUp M port failed debug none = some (.ok (st, dev))) :
    st = .ready [frame 0x06 0x01 [0x01, 0x07, 0, 1, 1, 1, 0, 0], frame 0x0a 0x04 []] ∧
    ∃ b, AckSeen port cfgMsgAllPorts_ 0 [] dev.reads b ∧ Holds crateDispatch.maxPayloadLen dev b := by
  obtain ⟨h1, -, -, h2⟩ := enable_ok hM port failed (new_holds _) h
  exact ⟨h1, h2⟩

/-- **C65** The main loop is reached without the subcommand if both writes succeed and the
acknowledgement has arrived at a pause of the line (and the port did not fail before). -/
theorem c65_reached (hM : 8176 + 8 + 1240 ≤ M / 2) (port : Port E) (failed : Nat → Bool) (debug : Bool)
    (hw : ∀ i, failed i = false) (n : Nat)
    (hr : ∀ i < n, Some1240 (port i) ∨ Quiet (port i)) (hq : Quiet (port n))
    (ha : Acked cfgMsgAllPorts_ (received port 0 n)) :
    ∃ st dev, Cli.startUp M port failed debug none = some (.ok (st, dev)) := by
  have h0 : ∀ i, (Device.new M).reads + i = i := fun i => Nat.zero_add i
  obtain ⟨res, dev', h1, h2⟩ := c63_ends hM port cfgMsgAllPorts_ (new_holds _) n
    (fun i hi => by rw [h0]; exact hr i hi) (.inl ⟨by rw [h0]; exact hq, ha⟩)
  have h3 : res = .ok () := by
    obtain ⟨k, k1, k2, -⟩ := c63_returns hM port cfgMsgAllPorts_ (new_holds _) h1
    rcases k2 with ⟨k2, -⟩ | ⟨e, -, k2⟩
    · exact k2
    · rw [h0] at h2 k2
      have hk : k ≤ n := by have : (Device.new M).reads = 0 := rfl; omega
      rcases Nat.lt_or_eq_of_le hk with hk | rfl
      · rcases hr k hk with h | h
        · exact absurd k2 ((some1240_not_quiet h).2 e)
        · exact absurd k2 (no_failed_of_quiet h e)
      · exact absurd k2 (no_failed_of_quiet hq e)
  subst h3
  refine ⟨.ready [frame 0x06 0x01 [0x01, 0x07, 0, 1, 1, 1, 0, 0], frame 0x0a 0x04 []], dev', ?_⟩
  unfold Cli.startUp Cli.enable
  rw [(c45_set_rate navPvt_ 0 [0, 1, 1, 1, 0, 0] rfl).2, Except.ok_bind, c40_request_for]
  simp only [Cli.write, hw, Bool.false_eq_true, if_false, Cli.expectAck, h1]
  rfl

/-- A receiver that sends the acknowledgement for CFG-MSG, then a CFG-PRT message with a mode word
without meaning. -/
def cliPort : Port Unit
  | 0 => .data (frame 0x05 0x01 [6, 1])
  | 2 => .data (frame 0x06 0x00 (1 :: List.replicate 19 0))
  | _ => .timedOut

/-- The hypotheses of `c65_reached` (and so of `c65_start`) hold for it, and after two reads those of
`c64_crashes`. -/
example : (∀ i < 1, Some1240 (cliPort i) ∨ Quiet (cliPort i)) ∧ Quiet (cliPort 1) ∧
    Acked cfgMsgAllPorts_ (received cliPort 0 1) ∧
    (∀ j < 1, Some1240 (cliPort (2 + j)) ∨ Quiet (cliPort (2 + j))) ∧
    FatalIn ([] ++ received cliPort 2 1) := by
  refine ⟨?_, .inl rfl, ?_, ?_, ?_⟩
  · intro i hi
    rw [show i = 0 by omega]
    exact .inl ⟨_, rfl, by decide, by decide⟩
  · have h := decode_frame (maxLen := crateDispatch.maxPayloadLen) (sep := []) (c := 5) (i := 1)
      (p := [6, 1]) (rest := []) (by decide) (by rw [crate_max]; decide) (by decide)
    have e : received cliPort 0 1 = [] ++ frame 5 1 [6, 1] ++ [] := by decide
    unfold Acked
    rw [e, h]
    exact List.mem_cons_self
  · intro i hi
    rw [show i = 0 by omega]
    exact .inl ⟨_, rfl, by decide, by decide⟩
  · have h := decode_frame (maxLen := crateDispatch.maxPayloadLen) (sep := []) (c := 6) (i := 0)
      (p := 1 :: List.replicate 19 0) (rest := []) (by decide) (by rw [crate_max]; decide) (by decide)
    have e : [] ++ received cliPort 2 1 = [] ++ frame 6 0 (1 :: List.replicate 19 0) ++ [] := by decide
    refine ⟨.packet 6 0 (1 :: List.replicate 19 0), ?_, .inr ⟨_, rfl, by decide, by decide, ?_⟩⟩
    · rw [e, h]
      exact List.mem_cons_self
    · unfold ModeOk; decide +kernel

/-- **C65** With the subcommand (release build): when the main loop is reached and the port is known,
three frames have been written; the first one carries the settings of `c65_sends`, and its
acknowledgement was received before anything else was sent. -/
theorem c65_start_configured (hM : 8176 + 8 + 1240 ≤ M / 2) (port : Port E) (failed : Nat → Bool)
    (a : Cli.Args) {st : Cli.Start} {dev : Device M}
    (h : Cli.startUp M port failed false (some a) = some (.ok (st, dev))) :
    (¬ Sensible a ∧ st = .exit) ∨
    (Sensible a ∧ askedPort a = none ∧
      st = .ready [frame 0x06 0x01 [0x01, 0x07, 0, 1, 1, 1, 0, 0], frame 0x0a 0x04 []] ∧
      ∃ b, AckSeen port cfgMsgAllPorts_ 0 [] dev.reads b ∧ Holds crateDispatch.maxPayloadLen dev b) ∨
    (Sensible a ∧ ∃ num charLen, askedPort a = some num ∧ askedCharLen a = some charLen ∧
      st = .ready [settingsFrame a num charLen (sentParity a) 9600,
        frame 0x06 0x01 [0x01, 0x07, 0, 1, 1, 1, 0, 0], frame 0x0a 0x04 []] ∧
      ∃ i b b', AckSeen port cfgPrtUart_ 0 [] i b ∧ AckSeen port cfgMsgAllPorts_ i b dev.reads b' ∧
        Holds crateDispatch.maxPayloadLen dev b') := by
  obtain ⟨s1, s2, s3⟩ := c65_sends a
  unfold Cli.startUp at h
  by_cases hs : Sensible a
  · right
    cases hp : askedPort a with
    | none =>
      left
      simp only [s2 hs hp] at h
      obtain ⟨h1, -, -, h2⟩ := enable_ok hM port failed (new_holds _) h
      exact ⟨hs, rfl, h1, h2⟩
    | some num =>
      right
      obtain ⟨charLen, hc⟩ := Option.isSome_iff_exists.mp hs.1
      simp only [s3 num charLen hs hp hc] at h
      refine ⟨hs, num, charLen, rfl, hc, ?_⟩
      split at h
      · cases h
      · rename_i w hw
        unfold Cli.write at hw
        split at hw
        · cases hw
        · cases hw
          split at h
          · cases h
          · cases h
          · rename_i dev' he
            obtain ⟨b, h1, h2⟩ := expectAck_ok hM port _ (new_holds _) he
            obtain ⟨h3, -, -, b', h4, h5⟩ := enable_ok hM port failed h2 h
            exact ⟨h3, _, b, b', h1, h4, h5⟩
  · left
    simp only [s1 hs] at h
    cases h
    exact ⟨hs, rfl⟩

end Ublox.Props
