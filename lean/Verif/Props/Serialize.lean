import Verif.Lemmas.Serialize
import Verif.Props.Iter

/-!
# C52: serialization of delivered packets with their repeated blocks
-/

namespace Ublox.Props

open Spec Gen

/-- The serialized form of a block reference: all its fields. -/
theorem entries_of_block {d : PackDesc} (hd : d = navSatSvInfo_ ∨ d = rxmRawxInfo_)
    {blk : Bytes} (hget : ∀ f ∈ d.fields, ∃ v, d.get f.getName blk = .ok v) :
    ∃ kvs, d.serializeFields blk d.getters = .ok kvs ∧ EntriesOf d blk kvs := by
  have hn : (d.fields.map FieldDesc.getName).Nodup :=
    names_nodup d (by rcases hd with rfl | rfl <;> decide +kernel)
  obtain ⟨vs, h1, h2, h3⟩ := serializeFields_ok (d := d) (payload := blk) d.getters (by
    intro g hg
    obtain ⟨i, hi⟩ := List.mem_iff_getElem?.mp hg
    rw [Getter.run_eq_get hn hi]
    exact hget _ (List.mem_of_getElem? (getters_of hi).1))
  have hnames : d.getters.map (·.field.name) = d.fields.map FieldDesc.name := by
    have e := genGetters_map_field d.fields 0 []
    conv => rhs; rw [← e]
    rw [List.map_map]; rfl
  rw [hnames] at h1
  rw [getters_length] at h2
  refine ⟨_, h1, by rw [List.map_fst_zip (by simp [h2])], ?_⟩
  intro j f hf
  obtain ⟨sf, hg⟩ := getters_getElem? hf
  obtain ⟨v, h4, h5⟩ := h3 j _ hg
  rw [Getter.run_eq_get hn hg] at h5
  refine ⟨v, ?_, h5⟩
  rw [List.getElem?_zip_eq_some]
  exact ⟨by rw [List.getElem?_map, hf]; rfl, h4⟩

/-- Every item of an iterator is serialized as its block says. -/
theorem serialize_item {k : IterKind} {data : Bytes} {i : Nat} (hi : i < data.length / blockSize k)
    {x : IterItem} (h : ItemOf k (block (blockSize k) data i) x) :
    ∃ y, x.serialize = .ok y ∧ SerItemOf k (block (blockSize k) data i) y := by
  cases k <;> cases x <;> simp only [ItemOf] at h
  · subst h
    obtain ⟨kvs, h1, h2⟩ := entries_of_block (.inl rfl) (fun f hf =>
      c32_items (.inl rfl) (k := .navSat) (by decide +kernel) hi hf)
    exact ⟨.map kvs, by simp only [IterItem.serialize, h1]; rfl, kvs, rfl, h2⟩
  · exact ⟨_, rfl, _, rfl, h⟩
  · exact ⟨_, rfl, _, _, rfl, h⟩
  · exact ⟨_, rfl, _, _, _, rfl, h⟩
  · subst h
    obtain ⟨kvs, h1, h2⟩ := entries_of_block (.inr rfl) (fun f hf =>
      c32_items (.inr rfl) (k := .rxmRawx) (by decide +kernel) hi hf)
    exact ⟨.map kvs, by simp only [IterItem.serialize, h1]; rfl, kvs, rfl, h2⟩
  · exact ⟨_, rfl, _, rfl, h⟩

/-- In the packets of the receive list exactly the fields with an iterator are serialized as a
sequence. -/
theorem recv_serialize : ∀ d ∈ recvPackets, ∀ f ∈ d.fields,
    ((∀ k, f.map ≠ some (.iter k)) → (f.ty.size.isSome || f.isOptional) = true) ∧
    (∀ k, f.map = some (.iter k) → (f.ty.size.isSome || f.isOptional) = false) := by
  have h : ∀ d ∈ recvPackets, ∀ f ∈ d.fields, (f.ty.size.isSome || f.isOptional) =
      match f.map with
      | some (.iter _) => false
      | _ => true := by decide +kernel
  intro d hd f hf
  rw [h d hd f hf]
  constructor
  · intro hk
    split
    · rename_i k hm; exact absurd hm (hk k)
    · rfl
  · intro k hk
    rw [hk]

/-- **C52** A delivered packet (whose accessors return, see `c25_accessors_partial`) is serialized
without panic and in finitely many steps: as its class, its id and one entry per field in
declaration order.  An entry is what the accessor returns; where that is an iterator, the entry is
the sequence of all blocks in order, see `SerOf`. -/
theorem c52_serialized {cls id : UInt8} {payload p : Bytes} {d : PackDesc} {M : Nat}
    (h : matchPacket cls id payload = .ok (.ok (.known d p)))
    (hu : d = cfgPrtUart_ → UartWordOk p) (hM : p.length ≤ M) :
    ∃ ss : List Ser, ss.length = d.fields.length ∧
      (PacketRef.known d p).serializeAll M = some (.ok
        (("class", .val (.raw (.u8 cls))) :: ("msg_id", .val (.raw (.u8 id))) ::
          (d.fields.map FieldDesc.name).zip ss)) ∧
      ∀ (i : Nat) (f : FieldDesc), d.fields[i]? = some f →
        ∃ v s, ss[i]? = some s ∧ d.get f.getName p = .ok v ∧ SerOf v s := by
  obtain ⟨hget, -, -, -⟩ := c25_accessors_partial h hu
  obtain ⟨hd, hv⟩ := delivered h
  have hn := names_nodup d (recv_readable d hd).1
  have hsized : ∀ f ∈ d.fields, ∀ v, d.get f.getName p = .ok v →
      ∃ s, f.serialize M v = some (.ok s) ∧ SerOf v s := by
    intro f hf v hfv
    obtain ⟨i, hi⟩ := List.mem_iff_getElem?.mp hf
    obtain ⟨htab, htab'⟩ := recv_serialize d hd f hf
    by_cases hk : ∃ k, f.map = some (.iter k)
    · obtain ⟨k, hk⟩ := hk
      have hmem : (d, f.getName, k, start d.fields (d.fields.idxOf f)) ∈ iterAccessors := by
        rw [← c32_all.mem_iff, List.mem_flatMap]
        refine ⟨d, hd, List.mem_filterMap.mpr ⟨f, hf, ?_⟩⟩
        rw [hk]
      obtain ⟨data, h1, ⟨items, h2, h3, -, h4⟩, -⟩ := c32_iterators h hmem hM
      rw [hfv] at h1
      simp only [Except.ok.injEq] at h1
      subst h1
      have hlt : ∀ {j : Nat} {x : IterItem}, items[j]? = some x → j < data.length / blockSize k := by
        intro j x hx
        rw [← h2]; exact (List.getElem?_eq_some_iff.mp hx).1
      obtain ⟨st, hst⟩ := h4 1
      obtain ⟨ys, k1, k2, k3⟩ := collectSeq_of_iterate hst (fun x hx => by
        obtain ⟨j, hj⟩ := List.mem_iff_getElem?.mp hx
        obtain ⟨y, hy, -⟩ := serialize_item (hlt hj) (h3 j x hj)
        exact ⟨y, hy⟩)
      refine ⟨.seq ys, ?_, ?_, fun hne => absurd rfl (hne k data)⟩
      · unfold FieldDesc.serialize
        rw [htab' k hk]
        simp only [Bool.false_eq_true, if_false, k1]
        rfl
      · intro k' data' he
        simp only [Val.iter.injEq] at he
        obtain ⟨rfl, rfl⟩ := he
        refine ⟨ys, rfl, by rw [k2, h2], fun j y hy => ?_⟩
        obtain ⟨x, hx, hxy⟩ := k3 j y hy
        obtain ⟨y', hy', hs'⟩ := serialize_item (hlt hx) (h3 j x hx)
        rw [hxy] at hy'
        simp only [Except.ok.injEq] at hy'
        rwa [hy']
    · have hk' : ∀ k, f.map ≠ some (.iter k) := fun k hm => hk ⟨k, hm⟩
      have hne : ∀ k data, v ≠ .iter k data := by
        have hwf := recv_wf hd
        by_cases ht : f.ty = .tail
        · obtain ⟨bs, -, h2⟩ := get_tail hwf hn hi ht hv.1
          rw [hfv] at h2
          cases hm : f.map with
          | none => rw [hm] at h2; cases h2; intro k data; simp
          | some c =>
            rw [hm] at h2
            exact convert_not_iter (fun k hc => hk' k (by rw [hm, hc])) h2.symm
        · obtain ⟨r, -, -, h2, -⟩ := get_sized hwf hn hi ht (lenOk_total_le hv.1)
          rw [hfv] at h2
          exact fieldConvert_not_iter hk' h2.symm
      refine ⟨.val v, ?_, fun k data he => absurd he (hne k data), fun _ => rfl⟩
      unfold FieldDesc.serialize
      rw [htab hk', if_pos rfl]
  obtain ⟨ss, h1, h2, h3⟩ := serializeEntries_ok (M := M) (d := d) (payload := p) d.getters (by
    intro g hg
    obtain ⟨i, hi⟩ := List.mem_iff_getElem?.mp hg
    have hmem := List.mem_of_getElem? (getters_of hi).1
    obtain ⟨v, hv⟩ := hget _ hmem
    obtain ⟨s, hs⟩ := hsized _ hmem v hv
    rw [Getter.run_eq_get hn hi]
    exact ⟨v, s, hv, hs⟩)
  obtain ⟨q, k1, k2, -, -⟩ := c23_dispatch cls id payload
  rw [h] at k1
  simp only [Except.ok.injEq] at k1
  subst k1
  simp only [PacketRef.classAndMsgId, Prod.mk.injEq] at k2
  refine ⟨ss, by rw [h2, getters_length], ?_, ?_⟩
  · have : d.getters.map (·.field.name) = d.fields.map FieldDesc.name := by
      have e := genGetters_map_field d.fields 0 []
      conv => rhs; rw [← e]
      rw [List.map_map]; rfl
    simp only [PacketRef.serializeAll, h1, k2.1, k2.2, this]
    rfl
  · intro i f hf
    obtain ⟨sf, hg⟩ := getters_getElem? hf
    obtain ⟨v, s, h4, h5, h6⟩ := h3 i _ hg
    rw [Getter.run_eq_get hn hg] at h5
    exact ⟨v, s, h4, h5, h6⟩

/-- **C52** A frame that is none of the crate's packets (see `c23_dispatch`) is delivered and
serialized as well: as its payload, its class and its id. -/
theorem c52_unknown {cls id : UInt8} {payload : Bytes}
    (h : ∀ e ∈ recvPackets, e.cls = cls → e.id = id → ¬ Valid e payload) (M : Nat) :
    ∃ q, matchPacket cls id payload = .ok (.ok q) ∧
      q.serialize = .ok [("payload", .raw (.bytes payload)), ("class", .raw (.u8 cls)),
        ("msg_id", .raw (.u8 id))] ∧
      q.serializeAll M = some (.ok [("payload", .val (.raw (.bytes payload))),
        ("class", .val (.raw (.u8 cls))), ("msg_id", .val (.raw (.u8 id)))]) := by
  obtain ⟨q, k1, k2, k3, k4⟩ := c23_dispatch cls id payload
  cases q with
  | known d p =>
    obtain ⟨pre, post, h5, h6, h7, h8, -⟩ := k4
    exact absurd h8 (h d (by rw [h5]; simp) h6 h7)
  | unknown p c i =>
    simp only [PacketRef.classAndMsgId, PacketRef.payload, Prod.mk.injEq] at k2 k3
    obtain ⟨⟨rfl, rfl⟩, rfl⟩ := k2, k3
    exact ⟨_, k1, rfl, rfl⟩

/-- There are such frames. -/
example : ∀ e ∈ recvPackets, e.cls = 0xf0 → e.id = 0x05 → ¬ Valid e [1, 2] := by
  have : ∀ e ∈ recvPackets, e.cls ≠ 0xf0 := by decide +kernel
  exact fun e he h => absurd h (this e he)

/-- NAV-SAT with one satellite: the sequence has one map with seven entries. -/
example : matchPacket 0x01 0x35 (List.replicate 20 7) =
      .ok (.ok (.known navSat_ (List.replicate 20 7))) ∧ navSat_ ≠ cfgPrtUart_ ∧
    (IterItem.sv (List.replicate 12 7)).serialize = .ok (.map
      [("gnss_id", .raw (.u8 7)), ("sv_id", .raw (.u8 7)), ("cno", .raw (.u8 7)),
        ("elev", .raw (.i8 7)), ("azim", .raw (.i16 0x707)), ("pr_res", .raw (.i16 0x707)),
        ("flags", .wrapped (.u32 0x7070707))]) := by decide +kernel

end Ublox.Props
