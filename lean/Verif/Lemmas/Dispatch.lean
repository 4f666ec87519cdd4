import Verif.Lemmas.Validate
import Verif.Lemmas.CfgVal
import Verif.Model.Dispatch

/-! # Accessors by name, dispatch -/

namespace Ublox
open Spec

/-! ## Facts about the table, by kernel evaluation on the complete table -/

theorem readable_wf : ∀ d ∈ Gen.allPackets, d.kind ≠ .send → d.wf = true := by decide +kernel

theorem recv_readable : ∀ d ∈ Gen.recvPackets, d ∈ Gen.allPackets ∧ d.kind ≠ .send := by
  decide +kernel

theorem names_nodup : ∀ d ∈ Gen.allPackets, (d.fields.map FieldDesc.getName).Nodup := by
  decide +kernel

theorem recv_wf {d : PackDesc} (h : d ∈ Gen.recvPackets) : d.wf = true :=
  readable_wf d (recv_readable d h).1 (recv_readable d h).2

/-! ## Accessors by name -/

theorem find?_of_nodup {α : Type} (f : α → String) (l : List α) (h : (l.map f).Nodup) {i : Nat}
    {a : α} (ha : l[i]? = some a) : (l.find? fun x => f x == f a) = some a := by
  induction l generalizing i with
  | nil => simp at ha
  | cons b l ih =>
    simp only [List.map_cons, List.nodup_cons] at h
    cases i with
    | zero =>
      simp only [List.getElem?_cons_zero, Option.some.injEq] at ha
      subst ha; simp
    | succ i =>
      rw [List.getElem?_cons_succ] at ha
      have hne : f b ≠ f a := fun hc =>
        h.1 (List.mem_map.mpr ⟨a, List.mem_of_getElem? ha, hc.symm⟩)
      rw [List.find?_cons_of_neg (by simpa using hne)]
      exact ih h.2 ha

theorem find_getter {d : PackDesc} (hn : (d.fields.map FieldDesc.getName).Nodup) {i : Nat}
    {g : Getter} (hg : d.getters[i]? = some g) :
    (d.getters.find? fun x => x.field.getName == g.field.getName) = some g := by
  refine find?_of_nodup (fun x : Getter => x.field.getName) d.getters ?_ hg
  have : d.getters.map (fun x => x.field.getName) = (d.getters.map (·.field)).map FieldDesc.getName := by
    rw [List.map_map]; rfl
  rw [this]
  unfold PackDesc.getters
  rw [genGetters_map_field]
  exact hn

/-- The accessors of a field of fixed size. -/
theorem get_sized {d : PackDesc} (hwf : d.wf = true)
    (hn : (d.fields.map FieldDesc.getName).Nodup) {i : Nat} {f : FieldDesc}
    (hf : d.fields[i]? = some f) (ht : f.ty ≠ .tail) {payload : Bytes}
    (hl : total d.fields ≤ payload.length) :
    ∃ r, r.ofTy f.ty = true ∧ Denotes r (fieldBytes d.fields i f payload) ∧
      d.get f.getName payload = f.convert r ∧
      (f.map ≠ none → d.getRaw f.getName payload = .ok r) := by
  obtain ⟨sf, hg⟩ := getters_getElem? hf
  have hfind := find_getter hn hg
  simp only at hfind
  have hfw := PackDesc.wf_field hwf hf
  have hw : width f.ty ≠ 0 := fun h => ht ((FieldDesc.wf_width hfw).mp h)
  have hst := start_add_le_total hf
  obtain ⟨r, h1, h2, h3⟩ := getRawField_ok (f := f) (off := start d.fields i) (data := payload) hw
    (by omega) (FieldDesc.wf_ref hfw hw)
  refine ⟨r, h2, ?_, ?_, ?_⟩
  · unfold fieldBytes; rw [if_neg ht]; exact h3
  · unfold PackDesc.get
    rw [hfind]
    unfold Getter.run Getter.runSized
    simp only [size_some hw, h1, Except.ok_bind]
  · intro hm
    unfold PackDesc.getRaw
    rw [hfind]
    unfold Getter.runRaw
    simp only [h1, Option.isSome_iff_ne_none.mpr hm, if_true]

/-- The size functions before a field of variable size and its own. -/
theorem sizeFns_sum_le (fs : List FieldDesc) (w : SizeFn → Nat) {i : Nat} {f : FieldDesc}
    (hf : fs[i]? = some f) :
    ((((fs.take i).filter fun f => width f.ty == 0).filterMap (·.sizeFn)).map w).sum
      + (f.sizeFn.toList.map w).sum ≤ ((fs.filterMap (·.sizeFn)).map w).sum := by
  induction fs generalizing i with
  | nil => simp at hf
  | cons g fs ih =>
    cases i with
    | zero =>
      simp only [List.getElem?_cons_zero, Option.some.injEq] at hf
      subst hf
      rw [List.filterMap_cons]
      cases g.sizeFn <;> simp
    | succ i =>
      rw [List.getElem?_cons_succ] at hf
      have := ih hf
      rw [List.take_succ_cons, List.filterMap_cons]
      by_cases hw : width g.ty = 0
      · rw [List.filter_cons_of_pos (by simp [hw]), List.filterMap_cons]
        cases hgs : g.sizeFn with
        | none => simpa using this
        | some s => simp only [List.map_cons, List.sum_cons]; omega
      · rw [List.filter_cons_of_neg (by simp [hw])]
        cases hgs : g.sizeFn with
        | none => simpa using this
        | some s => simp only [List.map_cons, List.sum_cons]; omega

/-- The bytes of a field of variable size with a size function: after the fixed part and the
announced sizes of the fields before. -/
def dynBytes (d : PackDesc) (i : Nat) (s : SizeFn) (payload : Bytes) : Bytes :=
  (payload.drop (start d.fields i +
    ((((d.fields.take i).filter fun f => width f.ty == 0).filterMap (·.sizeFn)).map
      (announcedSize payload)).sum)).take (announcedSize payload s)

/-- The accessor of a field of variable size. -/
theorem get_tail {d : PackDesc} (hwf : d.wf = true)
    (hn : (d.fields.map FieldDesc.getName).Nodup) {i : Nat} {f : FieldDesc}
    (hf : d.fields[i]? = some f) (ht : f.ty = .tail) {payload : Bytes}
    (hl : LenOk d payload) :
    ∃ bs, (match f.sizeFn with
        | none => bs = fieldBytes d.fields i f payload
        | some s => bs = dynBytes d i s payload ∧ bs.length = announcedSize payload s) ∧
      d.get f.getName payload =
        match f.map with
        | some c => c.convert f.mayFail (.bytes bs)
        | none => .ok (.raw (.bytes bs)) := by
  have hg0 := genGetters_getElem? d.fields 0 [] i
  rw [hf] at hg0
  simp only [Option.map_some, Nat.zero_add, List.nil_append] at hg0
  have hfind := find_getter (d := d) hn hg0
  simp only at hfind
  have htot := lenOk_total_le hl
  have hst := start_add_le_total hf
  have hsz : f.ty.size = none := by rw [ht]; rfl
  unfold PackDesc.get
  rw [hfind]
  unfold Getter.run Getter.tailBytes
  simp only [hsz]
  cases hs : f.sizeFn with
  | none =>
    refine ⟨_, rfl, ?_⟩
    simp only
    rw [sliceFrom_ok (by omega), Except.ok_bind]
    unfold fieldBytes
    rw [if_pos ht]
    cases f.map <;> rfl
  | some s =>
    simp only
    have hsf : (d.fields.filterMap (·.sizeFn)).isEmpty = false := by
      rw [Bool.eq_false_iff, ne_eq, List.isEmpty_iff, List.filterMap_eq_nil_iff]
      intro h
      rw [h f (List.mem_of_getElem? hf)] at hs
      cases hs
    have hsum := sizeFns_sum_le d.fields (announcedSize payload) hf
    rw [hs] at hsum
    simp only [Option.toList_some, List.map_cons, List.map_nil, List.sum_cons, List.sum_nil,
      Nat.add_zero] at hsum
    have hany : d.fields.any (fun f => f.ty == .tail) = true := by
      rw [List.any_eq_true]
      exact ⟨f, List.mem_of_getElem? hf, by simp [ht]⟩
    have hreq : total d.fields + ((d.fields.filterMap (·.sizeFn)).map (announcedSize payload)).sum
        ≤ payload.length := by
      unfold LenOk required at hl
      rw [if_pos hany, if_neg (by omega)] at hl
      exact hl
    rw [sumSizeFns_eq hwf hsf htot, Except.ok_bind, sizeFn_run_eq hwf hsf htot, Except.ok_bind,
      sliceRange_ok (by omega) (by omega), Except.ok_bind]
    refine ⟨dynBytes d i s payload, ⟨rfl, ?_⟩, ?_⟩
    · unfold dynBytes
      rw [List.length_take, List.length_drop]
      omega
    · unfold dynBytes
      rw [Nat.add_sub_cancel_left]
      cases f.map <;> rfl

/-! ## Conversions -/

theorem mulScale_f64 (x : Fl) (s : Rat) : ∃ v, mulScale (.f64 x) s = .ok v := ⟨_, rfl⟩
theorem mulScale_f32 (x : Fl) (s : Rat) : ∃ v, mulScale (.f32 x) s = .ok v := ⟨_, rfl⟩

theorem enum_from_total (e : EnumDesc) (h : e.rest = some .reserved) (x : UInt8) :
    ∃ v, e.from x = .ok v := by
  obtain ⟨v, hv⟩ := e.lookup_total h x
  exact ⟨v, by unfold EnumDesc.from; rw [hv]⟩

theorem enum_fromUnchecked_total (e : EnumDesc) (x : UInt8) (h : x ∈ e.variants.map (·.2))
    (hr : e.rest ≠ some .reserved) : ∃ v, e.fromUnchecked x = .ok v := by
  unfold EnumDesc.fromUnchecked EnumDesc.lookup EnumDesc.allVariants
  rw [if_neg hr]
  obtain ⟨v, hv, rfl⟩ := List.mem_map.mp h
  cases hf : e.variants.find? fun w => w.2 == v.2 with
  | some w => exact ⟨w, rfl⟩
  | none =>
    have := List.find?_eq_none.mp hf v hv
    simp at this

/-- Converting the raw value of an acceptable field succeeds, except for a `UartMode` word that
holds codes without meaning. -/
theorem convert_ok {f : FieldDesc} (hw : f.wf = true) (ht : f.ty ≠ .tail) {r : RawVal} {bs : Bytes}
    (hr : r.ofTy f.ty = true) (hd : Denotes r bs) (hv : FieldValid f bs)
    (hu : f.map = some .uartMode → ∀ w, r = .u32 w → ∃ m, UartMode.from w = .ok m) :
    ∃ v, f.convert r = .ok v := by
  unfold FieldDesc.convert
  simp only [FieldDesc.wf, Bool.and_eq_true] at hw
  obtain ⟨⟨-, -⟩, hw⟩ := hw
  unfold FieldValid at hv
  split at hw
  · rename_i hm
    simp_all
    exact ⟨_, rfl⟩
  · rename_i e hm hty
    simp only [Bool.and_eq_true, Option.isNone_iff_eq_none] at hw
    rw [hm] at hv
    rw [hty] at hr
    obtain ⟨b, rfl, rfl⟩ := u8_of_denotes hr hd
    simp only [hm, hw.1, Conv.convert]
    by_cases hmf : f.mayFail = true
    · simp only [hmf, if_true, Bool.and_eq_true, beq_iff_eq, bne_iff_ne] at hw
      obtain ⟨b', hb', hmem⟩ := hv hmf
      simp only [List.cons.injEq, and_true] at hb'
      subst hb'
      obtain ⟨v, hv⟩ := enum_fromUnchecked_total e b hmem hw.2.2
      rw [if_pos hmf, if_pos hw.2.1, hv]
      exact ⟨_, rfl⟩
    · rw [if_neg hmf] at hw
      simp only [Bool.and_eq_true, beq_iff_eq] at hw
      obtain ⟨v, hv⟩ := enum_from_total e hw.2.2 b
      rw [if_neg hmf, if_pos hw.2.1, hv]
      exact ⟨_, rfl⟩
  · rename_i n hm hty
    simp only [Bool.and_eq_true, Option.isNone_iff_eq_none] at hw
    rw [hm] at hv
    obtain ⟨s, hs⟩ := hv hw.1
    rw [hty] at hr
    cases r <;> simp [RawVal.ofTy] at hr
    rename_i b
    have : bs = b := hd
    subst this
    simp only [hm, hw.2, Conv.convert, convertToStrUnchecked_eq hs]
    exact ⟨_, rfl⟩
  · rename_i hty; exact absurd hty ht
  · rename_i hty; exact absurd hty ht
  · rename_i hty; exact absurd hty ht
  · rename_i hm hty
    simp only [Bool.and_eq_true, Bool.not_eq_true', Option.isNone_iff_eq_none, beq_iff_eq] at hw
    rw [hty] at hr
    cases r <;> simp [RawVal.ofTy] at hr
    simp [hm, hw, Conv.convert, RawVal.unsigned?]
  · rename_i hm hty
    simp only [Bool.and_eq_true, Bool.not_eq_true', Option.isNone_iff_eq_none, beq_iff_eq] at hw
    rw [hty] at hr
    cases r <;> simp [RawVal.ofTy] at hr
    simp [hm, hw, Conv.convert, RawVal.unsigned?]
  · rename_i hm hty
    simp only [Bool.and_eq_true, Bool.not_eq_true', Option.isNone_iff_eq_none, beq_iff_eq] at hw
    rw [hty] at hr
    cases r <;> simp [RawVal.ofTy] at hr
    simp [hm, hw, Conv.convert, RawVal.unsigned?]
  · rename_i hm
    simp only [Bool.and_eq_true, Bool.not_eq_true', Bool.or_eq_true, beq_iff_eq] at hw
    simp only [hm, Conv.convert]
    have : ∃ n, r.toInt? = some n := by
      rcases hw.2 with ((((h | h) | h) | h) | h) | h <;> rw [h] at hr <;>
        cases r <;> simp [RawVal.ofTy] at hr <;> exact ⟨_, rfl⟩
    obtain ⟨n, hn⟩ := this
    rw [hn]
    cases f.scale with
    | none => exact ⟨_, rfl⟩
    | some s => exact mulScale_f64 _ s
  · rename_i hm
    simp only [Bool.and_eq_true, Bool.not_eq_true', Bool.or_eq_true, beq_iff_eq] at hw
    simp only [hm, Conv.convert]
    have : ∃ n, r.toInt16? = some n := by
      rcases hw.2 with ((h | h) | h) | h <;> rw [h] at hr <;>
        cases r <;> simp [RawVal.ofTy] at hr <;> exact ⟨_, rfl⟩
    obtain ⟨n, hn⟩ := this
    rw [hn]
    cases f.scale with
    | none => exact ⟨_, rfl⟩
    | some s => exact mulScale_f32 _ s
  · rename_i hm hty
    simp only [Bool.and_eq_true, Bool.not_eq_true', Option.isNone_iff_eq_none] at hw
    rw [hty] at hr
    cases r <;> simp [RawVal.ofTy] at hr
    simp [hm, hw, Conv.convert]
  · rename_i hm hty
    simp only [Bool.and_eq_true, Bool.not_eq_true', Option.isNone_iff_eq_none] at hw
    rw [hty] at hr
    cases r <;> simp [RawVal.ofTy] at hr
    simp [hm, hw, Conv.convert]
  · rename_i hm hty
    simp only [Bool.and_eq_true, Bool.not_eq_true', Option.isNone_iff_eq_none] at hw
    rw [hty] at hr
    cases r <;> simp [RawVal.ofTy] at hr
    simp [hm, hw, Conv.convert]
  · rename_i hm hty
    simp only [Bool.and_eq_true, Bool.not_eq_true', Option.isNone_iff_eq_none] at hw
    rw [hty] at hr
    cases r <;> simp [RawVal.ofTy] at hr
    simp [hm, hw, Conv.convert]
  · rename_i hm hty
    simp only [Bool.and_eq_true, Bool.not_eq_true', Option.isNone_iff_eq_none] at hw
    rw [hty] at hr
    cases r <;> simp [RawVal.ofTy] at hr
    simp [hm, hw, Conv.convert]
  · rename_i hm hty
    simp only [Bool.and_eq_true, Bool.not_eq_true', Option.isNone_iff_eq_none] at hw
    rw [hty] at hr
    cases r <;> simp [RawVal.ofTy] at hr
    obtain ⟨m, hm'⟩ := hu hm _ rfl
    simp only [hm, hw, Conv.convert, hm']
    exact ⟨_, rfl⟩
  · rename_i hm hty
    simp only [Bool.and_eq_true, Bool.not_eq_true', Option.isNone_iff_eq_none] at hw
    rw [hty] at hr
    cases r <;> simp [RawVal.ofTy] at hr
    simp [hm, hw, Conv.convert]
  · rename_i hm hty
    simp only [Bool.and_eq_true, Bool.not_eq_true', Option.isNone_iff_eq_none] at hw
    rw [hty] at hr
    cases r <;> simp [RawVal.ofTy] at hr
    simp [hm, hw, Conv.convert]
  · exact absurd hw (by simp)

/-- Converting the bytes of a field of variable size always succeeds. -/
theorem convert_tail_ok {f : FieldDesc} (hw : f.wf = true) (ht : f.ty = .tail) (bs : Bytes) :
    ∃ v, (match f.map with
        | some c => c.convert f.mayFail (.bytes bs)
        | none => .ok (.raw (.bytes bs))) = Except.ok v := by
  simp only [FieldDesc.wf, Bool.and_eq_true, ht] at hw
  obtain ⟨-, hw⟩ := hw
  split at hw <;> rename_i hm <;> simp_all [Conv.convert]

theorem Getter.run_eq_get {d : PackDesc} (hn : (d.fields.map FieldDesc.getName).Nodup)
    {i : Nat} {g : Getter} (hg : d.getters[i]? = some g) (payload : Bytes) :
    g.run d payload = d.get g.field.getName payload := by
  unfold PackDesc.get
  rw [find_getter hn hg]

/-- Every accessor of a valid payload returns. -/
theorem get_ok {d : PackDesc} (hwf : d.wf = true)
    (hn : (d.fields.map FieldDesc.getName).Nodup) {payload : Bytes} (hv : Valid d payload)
    {i : Nat} {f : FieldDesc} (hf : d.fields[i]? = some f)
    (hu : f.map = some .uartMode → ∀ w, d.getRaw f.getName payload = .ok (.u32 w) →
      ∃ m, UartMode.from w = .ok m) :
    ∃ v, d.get f.getName payload = .ok v := by
  have hfw := PackDesc.wf_field hwf hf
  by_cases ht : f.ty = .tail
  · obtain ⟨bs, -, h2⟩ := get_tail hwf hn hf ht hv.1
    rw [h2]
    exact convert_tail_ok hfw ht bs
  · obtain ⟨r, h1, h2, h3, h4⟩ := get_sized hwf hn hf ht (lenOk_total_le hv.1)
    rw [h3]
    refine convert_ok hfw ht h1 h2 (hv.2 i f hf) fun hm w hw => hu hm w ?_
    rw [h4 (by simp [hm]), hw]

/-- `serialize_fields` calls the accessors one after the other. -/
theorem serializeFields_error {d : PackDesc} {payload : Bytes} {g : Getter} {q : Panic}
    (hq : g.run d payload = .error q) (gs : List Getter) (hg : g ∈ gs) :
    ∃ q', d.serializeFields payload gs = .error q' := by
  induction gs with
  | nil => simp at hg
  | cons g' gs ih =>
    unfold PackDesc.serializeFields
    cases hv : g'.run d payload with
    | error q' => exact ⟨q', rfl⟩
    | ok v =>
      rcases List.mem_cons.mp hg with rfl | hg
      · rw [hq] at hv; cases hv
      · obtain ⟨q', h⟩ := ih hg
        exact ⟨q', by rw [Except.ok_bind, h]; rfl⟩

theorem serializeFields_ok {d : PackDesc} {payload : Bytes} (gs : List Getter)
    (h : ∀ g ∈ gs, ∃ v, g.run d payload = .ok v) :
    ∃ vs : List Val, d.serializeFields payload gs = .ok ((gs.map (·.field.name)).zip vs) ∧
      vs.length = gs.length ∧
      ∀ (i : Nat) (g : Getter), gs[i]? = some g → ∃ v, vs[i]? = some v ∧ g.run d payload = .ok v := by
  induction gs with
  | nil => exact ⟨[], rfl, rfl, by simp⟩
  | cons g gs ih =>
    obtain ⟨v, hv⟩ := h g (by simp)
    obtain ⟨vs, h1, h2, h3⟩ := ih fun g hg => h g (by simp [hg])
    refine ⟨v :: vs, ?_, by simp [h2], ?_⟩
    · unfold PackDesc.serializeFields
      rw [hv, Except.ok_bind, h1]
      rfl
    · intro i g' hg'
      cases i with
      | zero =>
        simp only [List.getElem?_cons_zero, Option.some.injEq] at hg'
        exact ⟨v, rfl, hg' ▸ hv⟩
      | succ i =>
        rw [List.getElem?_cons_succ] at hg'
        simpa using h3 i g' hg'

/-! ## Dispatch -/

/-- What `match_packet` does on a list of packets. -/
theorem matchPacketIn_eq (cls id : UInt8) (payload : Bytes) (ds : List PackDesc)
    (h : ∀ d ∈ ds, d.wf = true) :
    ((∀ d ∈ ds, cls = d.cls → id = d.id → ¬ Valid d payload) ∧
      matchPacketIn cls id payload ds = .ok (.ok (.unknown payload cls id))) ∨
    (∃ pre d post, ds = pre ++ d :: post ∧ cls = d.cls ∧ id = d.id ∧ Valid d payload ∧
      (∀ e ∈ pre, cls = e.cls → id = e.id → ¬ Valid e payload) ∧
      matchPacketIn cls id payload ds = .ok (.ok (.known d payload))) := by
  induction ds with
  | nil => exact .inl ⟨by simp, rfl⟩
  | cons d ds ih =>
    by_cases hm : cls = d.cls ∧ id = d.id
    · obtain ⟨r, hr⟩ := validate_total (h d (by simp)) payload
      by_cases hv : Valid d payload
      · have := (validate_ok_iff (h d (by simp)) payload).mpr hv
        refine .inr ⟨[], d, ds, rfl, hm.1, hm.2, hv, by simp, ?_⟩
        unfold matchPacketIn
        rw [if_pos hm, this]
        rfl
      · have hr' : ∃ e, r = .error e := by
          cases r with
          | error e => exact ⟨e, rfl⟩
          | ok u => exact absurd ((validate_ok_iff (h d (by simp)) payload).mp hr) hv
        obtain ⟨e, rfl⟩ := hr'
        have step : matchPacketIn cls id payload (d :: ds) = matchPacketIn cls id payload ds := by
          conv => lhs; unfold matchPacketIn
          rw [if_pos hm, hr]
          rfl
        rw [step]
        rcases ih fun e he => h e (by simp [he]) with ⟨h1, h2⟩ | ⟨pre, e, post, h1, h2, h3, h4, h5, h6⟩
        · refine .inl ⟨?_, h2⟩
          intro e he h1' h2'
          rcases List.mem_cons.mp he with rfl | he
          · exact hv
          · exact h1 e he h1' h2'
        · refine .inr ⟨d :: pre, e, post, by rw [h1]; rfl, h2, h3, h4, ?_, h6⟩
          intro e' he h1' h2'
          rcases List.mem_cons.mp he with rfl | he
          · exact hv
          · exact h5 e' he h1' h2'
    · have step : matchPacketIn cls id payload (d :: ds) = matchPacketIn cls id payload ds := by
        conv => lhs; unfold matchPacketIn
        rw [if_neg hm]
      rw [step]
      rcases ih fun e he => h e (by simp [he]) with ⟨h1, h2⟩ | ⟨pre, e, post, h1, h2, h3, h4, h5, h6⟩
      · refine .inl ⟨?_, h2⟩
        intro e he h1' h2'
        rcases List.mem_cons.mp he with rfl | he
        · exact absurd ⟨h1', h2'⟩ hm
        · exact h1 e he h1' h2'
      · refine .inr ⟨d :: pre, e, post, by rw [h1]; rfl, h2, h3, h4, ?_, h6⟩
        intro e' he h1' h2'
        rcases List.mem_cons.mp he with rfl | he
        · exact absurd ⟨h1', h2'⟩ hm
        · exact h5 e' he h1' h2'

theorem matchPacket_total (cls id : UInt8) (payload : Bytes) :
    ∃ r : PacketRef, matchPacket cls id payload = .ok (.ok r) := by
  rcases matchPacketIn_eq cls id payload Gen.recvPackets (fun _ h => recv_wf h) with
    ⟨-, h⟩ | ⟨_, d, _, -, -, -, -, -, h⟩
  · exact ⟨_, h⟩
  · exact ⟨_, h⟩

/-- The dispatch of the crate as argument of the parser: `PacketRef` with its `match_packet` and
`MAX_PAYLOAD_LEN` (`ublox/src/parser.rs:463-497`, `ublox_derive/src/output.rs:749-789`).  The value
is extracted from the proof that `match_packet` does not panic. -/
def crateDispatch : Dispatch PacketRef where
  matchPacket cls id payload :=
    match h : matchPacket cls id payload with
    | .ok r => r
    | .error e => absurd h (by
        obtain ⟨r, hr⟩ := matchPacket_total cls id payload
        rw [hr]
        intro hc
        cases hc)
  maxPayloadLen := MAX_PAYLOAD_LEN

theorem crateDispatch_eq (cls id : UInt8) (payload : Bytes) :
    matchPacket cls id payload = .ok (crateDispatch.matchPacket cls id payload) := by
  unfold crateDispatch
  simp only
  split
  · rename_i h; exact h
  · rename_i e h
    obtain ⟨r, hr⟩ := matchPacket_total cls id payload
    rw [hr] at h
    cases h

theorem crate_max : crateDispatch.maxPayloadLen = 8176 := by
  show MAX_PAYLOAD_LEN = 8176
  decide +kernel

end Ublox
