import Verif.Props.Packet

/-!
# C84: the order of the list of packets does not matter
-/

namespace Ublox.Props

open Spec Gen

/-- The two packet types cannot both accept a payload: their lengths are different, or both begin with
an enumeration and the codes are different. -/
def toldApart (d e : PackDesc) : Bool :=
  (!d.fields.any (fun f => f.ty == .tail) && !e.fields.any (fun f => f.ty == .tail) &&
    (d.fields.filterMap (·.sizeFn)).isEmpty && (e.fields.filterMap (·.sizeFn)).isEmpty &&
    total d.fields != total e.fields) ||
  match d.fields.head?, e.fields.head? with
  | some f, some g => f.ty == .u8 && g.ty == .u8 && f.mayFail && g.mayFail &&
      match f.map, g.map with
      | some (.enum a), some (.enum b) => a.variants.all fun v => b.variants.all fun w => v.2 != w.2
      | _, _ => false
  | _, _ => false

theorem lenOk_fixed {d : PackDesc} (h : d.fields.any (fun f => f.ty == .tail) = false)
    (hs : d.fields.filterMap (·.sizeFn) = []) {p : Bytes} (hv : LenOk d p) :
    p.length = total d.fields := by
  unfold LenOk required at hv
  rw [h, hs] at hv
  simpa using hv

theorem order_not_valid {d e : PackDesc} (h : toldApart d e = true) {p : Bytes} (hd : Valid d p)
    (he : Valid e p) : False := by
  unfold toldApart at h
  rw [Bool.or_eq_true] at h
  rcases h with h | h
  · simp only [Bool.and_eq_true, Bool.not_eq_true', List.isEmpty_iff, bne_iff_ne] at h
    obtain ⟨⟨⟨⟨h1, h2⟩, h3⟩, h4⟩, h5⟩ := h
    exact h5 ((lenOk_fixed h1 h3 hd.1).symm.trans (lenOk_fixed h2 h4 he.1))
  · split at h
    · rename_i f g hf hg
      simp only [Bool.and_eq_true, beq_iff_eq] at h
      obtain ⟨⟨⟨⟨h1, h2⟩, h3⟩, h4⟩, h5⟩ := h
      split at h5
      · rename_i a b ha hb
        rw [List.head?_eq_getElem?] at hf hg
        have v1 := hd.2 0 f hf h3
        have v2 := he.2 0 g hg h4
        rw [ha] at v1
        rw [hb] at v2
        obtain ⟨x, x1, x2⟩ := v1
        obtain ⟨y, y1, y2⟩ := v2
        have e1 : fieldBytes d.fields 0 f p = fieldBytes e.fields 0 g p := by
          unfold fieldBytes start
          simp [h1, h2]
        rw [x1, y1] at e1
        cases e1
        obtain ⟨v, v1, rfl⟩ := List.mem_map.mp x2
        obtain ⟨w, w1, w2⟩ := List.mem_map.mp y2
        have := List.all_eq_true.mp (List.all_eq_true.mp h5 v v1) w w1
        simp [w2] at this
      · cases h5
    · cases h

/-- The whole list. -/
theorem order_table : ∀ d ∈ recvPackets, ∀ e ∈ recvPackets, d.cls = e.cls → d.id = e.id →
    d = e ∨ toldApart d e = true ∨ (d = mgaGpsEph_ ∧ e = mgaGpsEPH_) ∨
      (d = mgaGpsEPH_ ∧ e = mgaGpsEph_) := by
  decide +kernel

/-- **C84** No frame is valid for two of the listed packet types, except that `MgaGpsEph` and
`MgaGpsEPH` are two types for the same message. -/
theorem c84_one_type {d e : PackDesc} (hd : d ∈ recvPackets) (he : e ∈ recvPackets)
    (hc : d.cls = e.cls) (hi : d.id = e.id) {payload : Bytes} (hvd : Valid d payload)
    (hve : Valid e payload) :
    d = e ∨ (d = mgaGpsEph_ ∧ e = mgaGpsEPH_) ∨ (d = mgaGpsEPH_ ∧ e = mgaGpsEph_) := by
  rcases order_table d hd e he hc hi with h | h | h
  · exact .inl h
  · exact (order_not_valid h hvd hve).elim
  · exact .inr h

theorem idxOf_split {l pre post : List PackDesc} {d : PackDesc} (h : l = pre ++ d :: post) :
    l.idxOf d ≤ pre.length := by
  rw [h, List.idxOf_append]
  split
  · exact Nat.le_of_lt (List.idxOf_lt_length_iff.mpr ‹_›)
  · simp

theorem mem_of_idxOf {l pre post : List PackDesc} {d : PackDesc} (h : l = pre ++ post)
    (hi : l.idxOf d < pre.length) : d ∈ pre := by
  apply Classical.byContradiction
  intro hn
  rw [h, List.idxOf_append, if_neg hn] at hi
  omega

theorem eph_valid_iff (payload : Bytes) : (Valid mgaGpsEph_ payload ↔ payload.length = 68) ∧
    (Valid mgaGpsEPH_ payload ↔ payload.length = 68) := by
  have h : ∀ d ∈ [mgaGpsEph_, mgaGpsEPH_], d.fields.any (fun f => f.ty == .tail) = false ∧
      d.fields.filterMap (·.sizeFn) = [] ∧ total d.fields = 68 ∧ fallible d = [] := by
    decide +kernel
  have h2 : ∀ d ∈ [mgaGpsEph_, mgaGpsEPH_], (Valid d payload ↔ payload.length = 68) := by
    intro d hd
    obtain ⟨h1, h2, h3, h4⟩ := h d hd
    rw [valid_iff, h4]
    unfold LenOk required
    rw [h1, h2, h3]
    simp
  exact ⟨h2 _ (by simp), h2 _ (by simp)⟩

/-- **C84** Whatever the order in which the packet types are listed, every frame is delivered as the
same type, provided only that `MgaGpsEph` is listed before `MgaGpsEPH`. -/
theorem c84_order_iff {l : List PackDesc} (hl : l.Perm recvPackets) :
    (∀ (cls id : UInt8) (payload : Bytes), matchPacketIn cls id payload l =
      matchPacket cls id payload) ↔
    l.idxOf mgaGpsEph_ < l.idxOf mgaGpsEPH_ := by
  have hmem : ∀ {d}, d ∈ l ↔ d ∈ recvPackets := fun {d} => hl.mem_iff
  have hwf : ∀ d ∈ l, d.wf = true := fun d h => recv_wf (hmem.mp h)
  have heph : mgaGpsEph_ ∈ recvPackets ∧ mgaGpsEPH_ ∈ recvPackets := by decide +kernel
  have hids : mgaGpsEph_.cls = mgaGpsEPH_.cls ∧ mgaGpsEph_.id = mgaGpsEPH_.id ∧
      mgaGpsEph_ ≠ mgaGpsEPH_ := by decide +kernel
  constructor
  · intro h
    have h1 := h mgaGpsEph_.cls mgaGpsEph_.id (List.replicate 68 0)
    have h2 : matchPacket mgaGpsEph_.cls mgaGpsEph_.id (List.replicate 68 0) =
      .ok (.ok (.known mgaGpsEph_ (List.replicate 68 0))) := by decide +kernel
    rw [h2] at h1
    rcases matchPacketIn_eq mgaGpsEph_.cls mgaGpsEph_.id (List.replicate 68 0) l hwf with
      ⟨-, h3⟩ | ⟨pre, d, post, e1, -, -, e4, e5, h3⟩
    · rw [h3] at h1; cases h1
    · rw [h3] at h1
      cases h1
      have hlt : l.idxOf mgaGpsEph_ ≤ pre.length := idxOf_split e1
      apply Nat.lt_of_le_of_lt hlt
      apply Classical.byContradiction
      intro hn
      rcases Nat.lt_or_eq_of_le (Nat.le_of_not_lt hn) with hn | hn
      · exact e5 _ (mem_of_idxOf e1 hn) hids.1 hids.2.1 ((eph_valid_iff _).2.mpr (by simp))
      · have g1 : l[l.idxOf mgaGpsEPH_]? = some mgaGpsEPH_ := by
          have hlt : l.idxOf mgaGpsEPH_ < l.length :=
            List.idxOf_lt_length_iff.mpr (hmem.mpr heph.2)
          rw [List.getElem?_eq_getElem hlt, List.getElem_idxOf hlt]
        rw [hn, e1] at g1
        simp only [List.getElem?_append_right (Nat.le_refl _), Nat.sub_self,
          List.getElem?_cons_zero, Option.some.injEq] at g1
        exact hids.2.2 g1
  · intro ho cls id payload
    unfold matchPacket
    rcases matchPacketIn_eq cls id payload l hwf with ⟨e1, h1⟩ | ⟨pre, d, post, e1, e2, e3, e4, e5, h1⟩
    · rcases matchPacketIn_eq cls id payload recvPackets (fun _ h => recv_wf h) with
        ⟨-, h2⟩ | ⟨pre, d, post, f1, f2, f3, f4, -⟩
      · rw [h1, h2]
      · exact (e1 d (hmem.mpr (by rw [f1]; simp)) f2 f3 f4).elim
    · have hd : d ∈ recvPackets := hmem.mp (by rw [e1]; simp)
      rcases matchPacketIn_eq cls id payload recvPackets (fun _ h => recv_wf h) with
        ⟨f1, -⟩ | ⟨pre', d', post', f1, f2, f3, f4, f5, h2⟩
      · exact (f1 d hd e2 e3 e4).elim
      · rw [h1, h2]
        have hd' : d' ∈ recvPackets := by rw [f1]; simp
        rcases c84_one_type hd hd' (e2.symm.trans f2) (e3.symm.trans f3) e4 f4 with
          rfl | ⟨rfl, rfl⟩ | ⟨rfl, rfl⟩
        · rfl
        · exact (c46_eph_shadowed.2 cls id payload payload h2).elim
        · have g1 := idxOf_split e1
          have g2 := mem_of_idxOf (d := mgaGpsEph_) e1 (by omega)
          exact (e5 _ g2 f2 f3 f4).elim

/-- The order of the crate satisfies the condition, and so does the reversed list with the two types
exchanged. -/
example : recvPackets.idxOf mgaGpsEph_ < recvPackets.idxOf mgaGpsEPH_ ∧
    recvPackets.reverse.idxOf mgaGpsEPH_ < recvPackets.reverse.idxOf mgaGpsEph_ ∧
    Valid mgaGpsEph_ (List.replicate 68 0) ∧ cfgPrtUart_.cls = cfgPrtSpi_.cls := by
  refine ⟨by decide +kernel, by decide +kernel, (eph_valid_iff _).1.mpr (by simp), by decide⟩

end Ublox.Props
