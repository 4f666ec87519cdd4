import Verif.Lemmas.Iter
import Verif.Props.Packet

/-!
# C32–C34: repeated blocks, MON-VER strings, ESF-MEAS
-/

namespace Ublox.Props

open Spec Gen

/-! ## C32 Iterators over blocks -/

/-- The accessors that return an iterator: packet, accessor, kind of the blocks, number of bytes
before them. -/
def iterAccessors : List (PackDesc × String × IterKind × Nat) :=
  [(navSat_, "svs", .navSat, 8), (rxmRawx_, "measurements", .rxmRawx, 16),
    (monVer_, "extension", .monVerExt, 40), (esfMeas_, "data", .esfMeas, 8),
    (esfRaw_, "data", .esfRaw, 4), (rxmSfrbx_, "dwrd", .dwrd, 8)]

/-- These are all. -/
theorem c32_all : (recvPackets.flatMap fun d => d.fields.filterMap fun f => match f.map with
      | some (.iter k) => some (d, f.getName, k, start d.fields (d.fields.idxOf f))
      | _ => none).Perm iterAccessors := by decide +kernel

/-- **C32** For a delivered packet the iterator goes through the blocks of the repeated part, see
`Visits`: as many items as there are complete blocks, the `i`-th item is the meaning of the `i`-th
block, the blocks are the whole repeated part, no panic, and nothing after the last block however
often one asks.  The repeated part is everything behind the fixed part; for ESF-MEAS as much of it
as the flags announce. -/
theorem c32_iterators {cls id : UInt8} {payload p : Bytes} {d : PackDesc} {name : String}
    {k : IterKind} {n M : Nat} (h : matchPacket cls id payload = .ok (.ok (.known d p)))
    (ha : (d, name, k, n) ∈ iterAccessors) (hM : p.length ≤ M) :
    ∃ data, d.get name p = .ok (.iter k data) ∧ Visits M k data ∧
      data = if d = esfMeas_ then (p.drop n).take (announcedSize p .dataLen) else p.drop n := by
  obtain ⟨hd, hv⟩ := delivered h
  have hall := (recv_readable d hd).1
  have hk := (recv_readable d hd).2
  have htab : ∀ x ∈ iterAccessors, total x.1.fields = x.2.2.2 ∧
      (x.1 ≠ esfMeas_ → ∃ y ∈ x.1.fields.zipIdx, y.1.getName = x.2.1 ∧ y.1.ty = .tail ∧
        y.1.sizeFn = none ∧ y.1.mayFail = true ∧ y.1.map = some (.iter x.2.2.1)) := by
    decide +kernel
  obtain ⟨hn, ht⟩ := htab _ ha
  simp only at hn ht
  by_cases he : d = esfMeas_
  · subst he
    have hx : name = "data" ∧ k = .esfMeas ∧ n = 8 := by
      have : ∀ x ∈ iterAccessors, x.1 = esfMeas_ → x.2 = ("data", .esfMeas, 8) := by decide +kernel
      have := this _ ha rfl
      simpa using this
    obtain ⟨rfl, rfl, rfl⟩ := hx
    rw [if_pos rfl]
    refine ⟨_, (c21_esf_meas hv.1).1, visits ?_ ?_ (by simp), rfl⟩
    · rw [List.length_take, List.length_drop]; omega
    · have hreq : 8 + announcedSize p .dataLen ≤ p.length := by
        have h1 := hv.1
        have h2 := lenOk_total_le h1
        unfold LenOk required at h1
        rw [if_pos (by decide +kernel), if_neg (by omega)] at h1
        have e : esfMeas_.fields.filterMap (·.sizeFn) = [.dataLen, .calibTagLen] := by decide +kernel
        rw [e, hn] at h1
        simp only [List.map_cons, List.map_nil, List.sum_cons, List.sum_nil] at h1
        omega
      rw [List.length_take, List.length_drop, Nat.min_eq_left (by omega)]
      exact ⟨_, rfl⟩
  · obtain ⟨⟨f, i⟩, hy, h1, h2, h3, h4, h5⟩ := ht he
    simp only at h1 h2 h3 h4 h5
    have hf := List.mem_zipIdx_iff_getElem?.mp hy
    simp only at hf
    obtain ⟨e1, e2⟩ := c21_tail hall hk hf h2 h3 hv.1
    rw [if_neg he]
    rw [h1, h5, hn] at e2
    refine ⟨_, e2, ?_, rfl⟩
    have hvf := hv.2 i f hf h4
    rw [h5] at hvf
    simp only [fieldBytes, if_pos h2, e1, hn] at hvf
    exact visits (by rw [List.length_drop]; omega) hvf.1 hvf.2

/-- NAV-SAT with two satellites -/
example : matchPacket 0x01 0x35 (List.replicate 32 7) =
      .ok (.ok (.known navSat_ (List.replicate 32 7))) ∧
    (navSat_, "svs", .navSat, 8) ∈ iterAccessors ∧
    (iterate (IterKind.navSat.next (2 ^ 32 - 1)) 3 (IterKind.navSat.new (List.replicate 24 7))).map
      (·.1) = .ok [some (.sv (List.replicate 12 7)), some (.sv (List.replicate 12 7)), none] := by
  decide +kernel

/-- **C32** The items of NAV-SAT and RXM-RAWX are references to a block; none of their accessors
panics. -/
theorem c32_items {d : PackDesc} (hd : d = navSatSvInfo_ ∨ d = rxmRawxInfo_) {k : IterKind}
    (hk : k = if d = navSatSvInfo_ then .navSat else .rxmRawx) {data : Bytes} {i : Nat}
    (hi : i < data.length / blockSize k) {f : FieldDesc} (hf : f ∈ d.fields) :
    ∃ v, d.get f.getName (block (blockSize k) data i) = .ok v := by
  have hlen : (block (blockSize k) data i).length = total d.fields := by
    have e : blockSize k = total d.fields := by
      rcases hd with rfl | rfl
      · rw [hk]; decide +kernel
      · rw [hk]; decide +kernel
    have hpos : 0 < blockSize k := by cases k <;> decide
    rw [← e]
    refine block_length ?_
    have := (Nat.le_div_iff_mul_le hpos).mp hi
    rw [Nat.mul_comm, Nat.mul_succ] at this
    omega
  have htab : d ∈ allPackets ∧ d.kind ≠ .send ∧ fallible d = [] ∧
      (d.fields.any fun f => f.ty == .tail) = false ∧ d.fields.filterMap (·.sizeFn) = [] ∧
      ∀ f ∈ d.fields, f.map ≠ some .uartMode := by
    rcases hd with rfl | rfl <;> decide +kernel
  obtain ⟨h1, h2, h3, h4, h5, h6⟩ := htab
  obtain ⟨j, hj⟩ := List.mem_iff_getElem?.mp hf
  refine get_ok (readable_wf d h1 h2) (names_nodup d h1) (valid_iff.mpr ⟨?_, ?_⟩) hj
    (fun hm => absurd hm (h6 f hf))
  · unfold LenOk required
    rw [h4, h5]
    simp [hlen]
  · rw [h3]; simp

example : (2 : Nat) < (List.replicate 36 (0 : UInt8)).length / blockSize .navSat := by decide +kernel

/-! ## C33 MON-VER -/

/-- A packet type that shares class and id with no other is delivered exactly for its valid
payloads. -/
theorem delivered_iff {cls id : UInt8} {d : PackDesc}
    (h : (recvPackets.filter fun d => decide (cls = d.cls ∧ id = d.id)) = [d]) (payload : Bytes) :
    matchPacket cls id payload = .ok (.ok (.known d payload)) ↔ Valid d payload := by
  have hm : d ∈ recvPackets.filter fun d => decide (cls = d.cls ∧ id = d.id) := by rw [h]; simp
  obtain ⟨h1, h2⟩ := List.mem_filter.mp hm
  simp only [decide_eq_true_eq] at h2
  unfold matchPacket
  rw [matchPacketIn_filter, h]
  have s := matchPacketIn_cons (payload := payload) (ds := []) (recv_wf h1) h2.1 h2.2
  constructor
  · intro he
    refine Classical.byContradiction fun hv => ?_
    rw [s.2 hv] at he
    simp [matchPacketIn] at he
  · exact s.1

/-- **C33** A payload is delivered as MON-VER exactly if it consists of a slot of 30 bytes, a slot of
10 bytes and further slots of 30 bytes, and each slot has a NUL and UTF-8 before it. -/
theorem c33_delivered (payload : Bytes) :
    matchPacket 0x0a 0x04 payload = .ok (.ok (.known monVer_ payload)) ↔
      40 ≤ payload.length ∧ 30 ∣ payload.length - 40 ∧
      (∃ s, CStr (payload.take 30) s) ∧ (∃ s, CStr ((payload.drop 30).take 10) s) ∧
      ∀ i < (payload.length - 40) / 30, ∃ s, CStr (block 30 (payload.drop 40) i) s := by
  have e0 : start monVer_.fields 0 = 0 := by decide +kernel
  have e1 : start monVer_.fields 1 = 30 := by decide +kernel
  have e2 : start monVer_.fields 2 = 40 := by decide +kernel
  rw [delivered_iff (by decide +kernel), valid_iff]
  have hf : fallible monVer_ = monVer_.fields.zipIdx := by decide +kernel
  have hl : LenOk monVer_ payload ↔ 40 ≤ payload.length := by
    unfold LenOk required
    rw [if_pos (by decide +kernel)]
    have : total monVer_.fields = 40 := by decide +kernel
    have e : monVer_.fields.filterMap (·.sizeFn) = [] := by decide +kernel
    rw [this, e]
    simp
  rw [hf, hl]
  refine and_congr_right fun _ => ?_
  simp only [monVer_, List.zipIdx_cons, List.zipIdx_nil, List.forall_mem_cons, List.not_mem_nil,
    false_implies, implies_true, and_true, FieldValid, forall_const]
  simp only [monVer_] at e0 e1 e2
  simp only [fieldBytes, e0, e1, e2, width, blockSize, List.drop_zero, List.length_drop,
    if_true, reduceCtorEq, if_false, Nat.zero_add, Nat.reduceAdd]
  constructor
  · rintro ⟨a, b, c, d⟩; exact ⟨c, a, b, d⟩
  · rintro ⟨a, b, c, d⟩; exact ⟨b, c, a, d⟩

/-- "ROM", "00" and one extension "A" -/
example : matchPacket 0x0a 0x04 ([82, 79, 77] ++ List.replicate 27 0 ++ [48, 48] ++
    List.replicate 8 0 ++ [65] ++ List.replicate 29 0) = .ok (.ok (.known monVer_ ([82, 79, 77] ++
      List.replicate 27 0 ++ [48, 48] ++ List.replicate 8 0 ++ [65] ++ List.replicate 29 0))) := by
  decide +kernel

/-- **C33** The strings of a delivered MON-VER packet are what is before the first NUL of each slot. -/
theorem c33_strings {payload : Bytes} {M : Nat} (hM : payload.length ≤ M)
    (h : matchPacket 0x0a 0x04 payload = .ok (.ok (.known monVer_ payload))) :
    (∃ s, monVer_.get "software_version" payload = .ok (.str s) ∧ CStr (payload.take 30) s) ∧
    (∃ s, monVer_.get "hardware_version" payload = .ok (.str s) ∧
      CStr ((payload.drop 30).take 10) s) ∧
    ∃ (data : Bytes) (ext : List Bytes),
      monVer_.get "extension" payload = .ok (.iter .monVerExt data) ∧
      ext.length = (payload.length - 40) / 30 ∧
      (∀ (i : Nat) (s : Bytes), ext[i]? = some s → CStr (block 30 (payload.drop 40) i) s) ∧
      ∀ extra, ∃ st, iterate (IterKind.monVerExt.next M) (ext.length + extra)
          (IterKind.monVerExt.new data) =
        .ok (ext.map (fun s => some (.str s)) ++ List.replicate extra none, st) := by
  obtain ⟨hd, hv⟩ := delivered h
  obtain ⟨hl, hdvd, ⟨s, hs⟩, ⟨t, ht⟩, hext⟩ := (c33_delivered payload).mp h
  have hwf := recv_wf hd
  have hn := names_nodup monVer_ (recv_readable _ hd).1
  have htot : total monVer_.fields ≤ payload.length := lenOk_total_le hv.1
  have e0 : start monVer_.fields 0 = 0 := by decide +kernel
  have e1 : start monVer_.fields 1 = 30 := by decide +kernel
  refine ⟨⟨s, ?_, hs⟩, ⟨t, ?_, ht⟩, ?_⟩
  · obtain ⟨r, h1, h2, h3, -⟩ := get_sized (i := 0) hwf hn rfl (by simp) htot
    simp only [FieldDesc.getName, Option.getD_none] at h3
    simp only [fieldBytes, e0, width, reduceCtorEq, if_false, List.drop_zero] at h2
    cases r <;> simp [RawVal.ofTy] at h1
    rename_i bs
    have : payload.take 30 = bs := h2
    rw [this] at hs
    rw [h3]
    simp only [FieldDesc.convert, Conv.convert, convertToStrUnchecked_eq hs]
    rfl
  · obtain ⟨r, h1, h2, h3, -⟩ := get_sized (i := 1) hwf hn rfl (by simp) htot
    simp only [FieldDesc.getName, Option.getD_none] at h3
    simp only [fieldBytes, e1, width, reduceCtorEq, if_false] at h2
    cases r <;> simp [RawVal.ofTy] at h1
    rename_i bs
    have : (payload.drop 30).take 10 = bs := h2
    rw [this] at ht
    rw [h3]
    simp only [FieldDesc.convert, Conv.convert, convertToStrUnchecked_eq ht]
    rfl
  · obtain ⟨data, h1, ⟨items, h2, h3, -, h4⟩, h5⟩ := c32_iterators (name := "extension")
      (k := .monVerExt) (n := 40) h (by decide +kernel) hM
    rw [if_neg (by decide +kernel)] at h5
    subst h5
    have hstr : ∃ ext : List Bytes, items = ext.map IterItem.str := by
      clear h2 h4
      have : ∀ x ∈ items, ∃ s, x = .str s := by
        intro x hx
        obtain ⟨i, hi⟩ := List.mem_iff_getElem?.mp hx
        have := h3 i x hi
        cases x <;> simp [ItemOf] at this
        exact ⟨_, rfl⟩
      clear h3
      induction items with
      | nil => exact ⟨[], rfl⟩
      | cons x items ih =>
        obtain ⟨s, rfl⟩ := this x (by simp)
        obtain ⟨ext, rfl⟩ := ih (fun y hy => this y (by simp [hy]))
        exact ⟨s :: ext, rfl⟩
    obtain ⟨ext, rfl⟩ := hstr
    refine ⟨_, ext, h1, by simpa [blockSize] using h2, ?_, ?_⟩
    · intro i s hi
      exact h3 i (.str s) (by rw [List.getElem?_map, hi]; rfl)
    · intro extra
      obtain ⟨st, hst⟩ := h4 extra
      refine ⟨st, ?_⟩
      rw [List.map_map, List.length_map] at hst
      exact hst

/-! ## C34 ESF-MEAS -/

/-- **C34** A payload is delivered as ESF-MEAS exactly if it is long enough for what the flags
announce, `numMeas` (bits 15..11) words and one more if bit 3 is set, and consists of complete
words. -/
theorem c34_delivered (payload : Bytes) :
    matchPacket 0x10 0x02 payload = .ok (.ok (.known esfMeas_ payload)) ↔
      8 ≤ payload.length ∧ 4 ∣ payload.length ∧
      8 + 4 * field (leNat ((payload.drop 4).take 2)) 11 5 +
        (if bit (leNat ((payload.drop 4).take 2)) 3 then 4 else 0) ≤ payload.length := by
  rw [delivered_iff (by decide +kernel), valid_iff]
  have e1 : start esfMeas_.fields 3 = 8 := by decide +kernel
  have hf : fallible esfMeas_ = [({ name := "data", ty := .tail, map := some (.iter .esfMeas), sizeFn := some .dataLen, mayFail := true }, 3)] := by decide +kernel
  have e : esfMeas_.fields.filterMap (·.sizeFn) = [.dataLen, .calibTagLen] := by decide +kernel
  have e2 : total esfMeas_.fields = 8 := by decide +kernel
  have hl : LenOk esfMeas_ payload ↔ 8 ≤ payload.length ∧
      8 + 4 * field (leNat ((payload.drop 4).take 2)) 11 5 +
        (if bit (leNat ((payload.drop 4).take 2)) 3 then 4 else 0) ≤ payload.length := by
    unfold LenOk required
    rw [if_pos (by decide +kernel), e, e2]
    simp only [List.map_cons, List.map_nil, List.sum_cons, List.sum_nil, announcedSize]
    split <;> omega
  rw [hf, hl]
  simp only [List.forall_mem_cons, List.not_mem_nil, false_implies, implies_true, and_true,
    FieldValid, forall_const, fieldBytes, if_true, e1, List.length_drop, blockSize, reduceCtorEq]
  constructor
  · rintro ⟨⟨a, b⟩, c⟩; exact ⟨a, by omega, b⟩
  · rintro ⟨a, b, c⟩; exact ⟨⟨a, c⟩, by omega⟩

/-- One measurement and a calibration tag; without the tag it is too short. -/
example : matchPacket 0x10 0x02 [0, 0, 0, 0, 8, 8, 0, 0, 1, 2, 3, 4, 5, 6, 7, 8] = .ok (.ok (.known esfMeas_ [0, 0, 0, 0, 8, 8, 0, 0, 1, 2, 3, 4, 5, 6, 7, 8])) ∧
    matchPacket 0x10 0x02 [0, 0, 0, 0, 8, 8, 0, 0, 1, 2, 3, 4] = .ok (.ok (.unknown
      [0, 0, 0, 0, 8, 8, 0, 0, 1, 2, 3, 4] 0x10 0x02)) := by decide +kernel

/-- **C34** `data` of a delivered ESF-MEAS packet yields exactly `numMeas` measurements, the `i`-th
from the `i`-th word behind the 8 fixed bytes, and then nothing; `calib_tag` is the word behind the
measurements if flag bit 3 is set, and `None` otherwise. -/
theorem c34_parts {payload : Bytes} {M : Nat} (hM : payload.length ≤ M)
    (h : matchPacket 0x10 0x02 payload = .ok (.ok (.known esfMeas_ payload))) :
    ∃ (flags : Nat) (data : Bytes) (ms : List (UInt8 × UInt32)),
      flags = leNat ((payload.drop 4).take 2) ∧
      esfMeas_.get "data" payload = .ok (.iter .esfMeas data) ∧
      ms.length = field flags 11 5 ∧
      (∀ (i : Nat) (m : UInt8 × UInt32), ms[i]? = some m →
        let w := leNat ((payload.drop (8 + 4 * i)).take 4)
        m.1.toNat = field w 24 6 ∧ m.2.toNat = field w 0 24) ∧
      (∀ extra, ∃ st, iterate (IterKind.esfMeas.next M) (ms.length + extra)
          (IterKind.esfMeas.new data) =
        .ok (ms.map (fun m => some (.esfMeas m.1 m.2)) ++ List.replicate extra none, st)) ∧
      (bit flags 3 = true → ∃ w : UInt32, esfMeas_.get "calib_tag" payload = .ok (.optU32 (some w)) ∧
        w.toNat = leNat ((payload.drop (8 + 4 * ms.length)).take 4)) ∧
      (bit flags 3 = false → esfMeas_.get "calib_tag" payload = .ok (.optU32 none)) := by
  obtain ⟨hd, hv⟩ := delivered h
  obtain ⟨hl, -, hl'⟩ := (c34_delivered payload).mp h
  obtain ⟨data, h1, ⟨items, h2, h3, -, h4⟩, h5⟩ := c32_iterators (name := "data")
      (k := .esfMeas) (n := 8) h (by decide +kernel) hM
  obtain ⟨-, c1, c2⟩ := c21_esf_meas hv.1
  rw [if_pos rfl] at h5
  simp only [announcedSize] at h5 c1 c2
  generalize hfl : leNat ((payload.drop 4).take 2) = flags at *
  have hlen : data.length = 4 * field flags 11 5 := by
    rw [h5, List.length_take, List.length_drop]; omega
  have hms : ∃ ms : List (UInt8 × UInt32), items = ms.map fun m => IterItem.esfMeas m.1 m.2 := by
    clear h2 h4
    have : ∀ x ∈ items, ∃ a b, x = .esfMeas a b := by
      intro x hx
      obtain ⟨i, hi⟩ := List.mem_iff_getElem?.mp hx
      have := h3 i x hi
      cases x <;> simp [ItemOf] at this
      exact ⟨_, _, rfl⟩
    clear h3
    induction items with
    | nil => exact ⟨[], rfl⟩
    | cons x items ih =>
      obtain ⟨a, b, rfl⟩ := this x (by simp)
      obtain ⟨ms, rfl⟩ := ih (fun y hy => this y (by simp [hy]))
      exact ⟨(a, b) :: ms, rfl⟩
  obtain ⟨ms, rfl⟩ := hms
  simp only [List.length_map, blockSize] at h2 h3 h4
  have hn : ms.length = field flags 11 5 := by omega
  refine ⟨flags, data, ms, rfl, h1, hn, ?_, ?_, ?_, ?_⟩
  · intro i m hi
    have hil : i < ms.length := (List.getElem?_eq_some_iff.mp hi).1
    have := h3 i (.esfMeas m.1 m.2) (by rw [List.getElem?_map, hi]; rfl)
    simp only [ItemOf] at this
    have e : block 4 data i = (payload.drop (8 + 4 * i)).take 4 := by
      rw [h5]
      unfold block
      rw [List.drop_take, List.take_take, List.drop_drop, Nat.min_eq_left (by omega)]
    rw [e] at this
    exact this
  · intro extra
    obtain ⟨st, hst⟩ := h4 extra
    rw [List.map_map] at hst
    exact ⟨st, hst⟩
  · intro hb
    rw [hb] at c1
    rw [hn]
    exact c1 rfl
  · intro hb
    rw [hb] at c2
    exact c2 (by simp)

end Ublox.Props
