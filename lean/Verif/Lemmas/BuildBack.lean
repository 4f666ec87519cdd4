import Verif.Lemmas.BuildTable
import Verif.Props.Packet

/-! # Reading built packets back -/

namespace Ublox
open Spec Gen Props

/-- The `i`-th block is found at the start of the `i`-th field. -/
theorem slot_of_blocks {fs : List FieldDesc} {ks : List Bytes} (hl : ks.length = fs.length)
    (h : ∀ (i : Nat) (f : FieldDesc) (k : Bytes), fs[i]? = some f → ks[i]? = some k →
      k.length = width f.ty) {i : Nat} {f : FieldDesc} {k : Bytes} (hf : fs[i]? = some f)
    (hk : ks[i]? = some k) :
    (ks.flatten.drop (start fs i)).take (width f.ty) = k := by
  induction fs generalizing ks i with
  | nil => simp at hf
  | cons g fs ih =>
    match ks, hl with
    | k0 :: ks, hl =>
      have h0 := h 0 g k0 rfl rfl
      cases i with
      | zero =>
        simp only [List.getElem?_cons_zero, Option.some.injEq] at hf hk
        subst hf; subst hk
        rw [start_zero, List.drop_zero, List.flatten_cons, ← h0, List.take_left']
        rfl
      | succ i =>
        simp only [List.getElem?_cons_succ] at hf hk
        have e : start (g :: fs) (i + 1) = k0.length + start fs i := by
          unfold start; rw [List.take_succ_cons, total_cons, h0]
        rw [e, List.flatten_cons, List.drop_append]
        rw [List.drop_eq_nil_of_le (by omega), List.nil_append,
          show k0.length + start fs i - k0.length = start fs i by omega]
        exact ih (by simpa using hl) (fun i f k hf hk => h (i + 1) f k hf hk) hf hk

theorem payloadOf_length {fs : List FieldDesc} {b : Builder} {p : Bytes} (hl : b.length = fs.length)
    (h : PayloadOf fs b p) : p.length = total fs := by
  obtain ⟨ks, rfl, h1, h2⟩ := h
  have : ∀ (fs : List FieldDesc) (ks : List Bytes), ks.length = fs.length →
      (∀ (i : Nat) (f : FieldDesc) (k : Bytes), fs[i]? = some f → ks[i]? = some k →
        k.length = width f.ty) → ks.flatten.length = total fs := by
    intro fs
    induction fs with
    | nil => intro ks h; simp at h; subst h; simp; rfl
    | cons f fs ih =>
      intro ks h hk
      match ks, h with
      | k :: ks, h =>
        rw [List.flatten_cons, List.length_append, total_cons, hk 0 f k rfl rfl,
          ih ks (by simpa using h) (fun i f k a b => hk (i + 1) f k a b)]
  refine this fs ks h1 fun i f k hf hk => ?_
  have : i < b.length := by rw [hl]; exact (List.getElem?_eq_some_iff.mp hf).1
  exact (h2 i f b[i] k hf (List.getElem?_eq_getElem this) hk).1

/-- What is in the slot of a field. -/
theorem payloadOf_slot {fs : List FieldDesc} {b : Builder} {p : Bytes} (hl : b.length = fs.length)
    (h : PayloadOf fs b p) {i : Nat} {f : FieldDesc} {v : Val} (hf : fs[i]? = some f)
    (hv : b[i]? = some v) :
    ∃ r, RawOf f v r ∧ Denotes r ((p.drop (start fs i)).take (width f.ty)) := by
  obtain ⟨ks, rfl, h1, h2⟩ := h
  have hi : i < ks.length := by rw [h1]; exact (List.getElem?_eq_some_iff.mp hf).1
  have hk := List.getElem?_eq_getElem hi
  obtain ⟨-, r, h3, h4⟩ := h2 i f v _ hf hv hk
  refine ⟨r, h3, ?_⟩
  rw [slot_of_blocks h1 (fun j g k hg hk => ?_) hf hk]
  · exact h4
  · have : j < b.length := by rw [hl]; exact (List.getElem?_eq_some_iff.mp hg).1
    exact (h2 j g b[j] k hg (List.getElem?_eq_getElem this) hk).1

theorem conv_types : (allPackets.all fun d => d.fields.all fun f =>
    match f.map with
    | some (.enum e) => decide (e ∈ allEnums)
    | some (.flags g) => decide (g ∈ allFlags)
    | _ => true) = true := by decide +kernel

theorem conv_type {d : PackDesc} (hd : d ∈ allPackets) {f : FieldDesc} (hf : f ∈ d.fields) :
    (∀ e, f.map = some (.enum e) → e ∈ allEnums) ∧
    (∀ g, f.map = some (.flags g) → g ∈ allFlags) := by
  have := List.all_eq_true.mp (List.all_eq_true.mp conv_types d hd) f hf
  constructor
  · intro e he; rw [he] at this; exact of_decide_eq_true this
  · intro e he; rw [he] at this; exact of_decide_eq_true this

/-- A value that is kept by the wire form of its field. -/
def Kept : Val → Prop
  | .enum _ => True
  | .flags _ => True
  | .uartMode _ => True
  | .raw _ => True
  | _ => False

/-- Converting back what is on the wire gives the value. -/
theorem convert_back {d : PackDesc} (hd : d ∈ allPackets) (hk : d.kind ≠ .send) {f : FieldDesc}
    (hf : f ∈ d.fields) {v : Val} (hv : HasType f v) (hx : Kept v) {r : RawVal}
    (hr : RawOf f v r) : f.convert r = .ok v := by
  have hw := readable_wf d hd hk
  simp only [PackDesc.wf, Bool.and_eq_true, List.all_eq_true] at hw
  have hw := hw.1 f hf
  obtain ⟨ce, cf⟩ := conv_type hd hf
  obtain ⟨hr, hr2⟩ := hr
  simp only [FieldDesc.wf, Bool.and_eq_true] at hw
  obtain ⟨-, hw⟩ := hw
  unfold HasType at hv
  revert hv
  split
  · -- raw
    rename_i r' hm
    intro hv
    rw [hm] at hr2 hw
    simp only [Bool.and_eq_true, Option.isNone_iff_eq_none] at hw
    simp only at hr2
    unfold FieldDesc.convert
    rw [hm, hw.2, hr2]
    rfl
  · exact absurd hx (by simp [Kept])
  · exact absurd hx (by simp [Kept])
  · -- enum
    rename_i e x hm
    intro hv
    rw [hm] at hr2 hw
    have hty : f.ty = .u8 := by revert hw; cases f.ty <;> simp
    rw [hty] at hw hr
    simp only [Bool.and_eq_true, Option.isNone_iff_eq_none] at hw
    cases r <;> simp [RawVal.ofTy] at hr
    rename_i w
    simp only [intOf, Option.some.injEq, Int.natCast_inj] at hr2
    have hr2 : w = x.2 := UInt8.toNat_inj.mp hr2
    subst hr2
    have he := ce e hm
    unfold FieldDesc.convert
    rw [hm, hw.1]
    simp only [Conv.convert]
    by_cases hmf : f.mayFail = true
    · rw [if_pos hmf] at hw ⊢
      simp only [Bool.and_eq_true, beq_iff_eq] at hw
      have hrest := (c27_from_exhaustive e he).2 hw.2.1
      have hxm : x ∈ e.variants := by
        unfold EnumDesc.allVariants at hv; rw [if_neg (by simp [hrest])] at hv; exact hv
      have := ((c28_closed_enums e he hrest).2.2.2.2.1 x hxm).2
      unfold EnumDesc.intoRawVal at this
      rw [if_pos hw.2.1, this]
      rfl
    · rw [if_neg hmf] at hw ⊢
      simp only [Bool.and_eq_true, beq_iff_eq] at hw
      rw [if_pos hw.2.1, (c27_open_enums e he hw.2.2).2.2.1 x hv]
      rfl
  · -- flags
    rename_i g x hm
    intro hv
    rw [hm] at hr2 hw
    have hg := (c29_flags_keep_bits g (cf g hm)).2.1
    have key : r.unsigned? g.nbits = some x ∧ f.mayFail = false ∧ g.from_ = true ∧ f.scale = none := by
      have hty : f.ty = .u8 ∨ f.ty = .u16 ∨ f.ty = .u32 := by revert hw; cases f.ty <;> simp
      rcases hty with hty | hty | hty <;> rw [hty] at hw hr <;>
        simp only [Bool.and_eq_true, Option.isNone_iff_eq_none, beq_iff_eq, Bool.not_eq_true'] at hw <;>
        cases r <;> simp [RawVal.ofTy] at hr <;>
        simp only [intOf, Option.some.injEq, Int.natCast_inj] at hr2 <;>
        exact ⟨by simp [RawVal.unsigned?, hw.1.2, hr2], hw.1.1.1, hw.1.1.2, hw.2⟩
    unfold FieldDesc.convert
    rw [hm, key.2.2.2]
    simp only [Conv.convert, key.1, key.2.1, key.2.2.1, hg x hv]
    rfl
  · -- uart mode
    rename_i m hm
    intro hv
    rw [hm] at hr2 hw
    have hty : f.ty = .u32 := by revert hw; cases f.ty <;> simp
    rw [hty] at hw hr
    simp only [Bool.and_eq_true, Option.isNone_iff_eq_none] at hw
    cases r <;> simp [RawVal.ofTy] at hr
    rename_i w
    simp only [intOf, Option.some.injEq, Int.natCast_inj] at hr2
    rw [← c30_uart_into] at hr2
    have hr2 : w = m.intoRaw := UInt32.toNat_inj.mp hr2
    unfold FieldDesc.convert
    rw [hm, hw.2]
    simp only [Conv.convert]
    rw [c30_uart_roundtrip m w (by rw [hr2]) (by rw [hr2]) (by rw [hr2])]
    rfl
  all_goals first | exact fun h => False.elim h | exact absurd hx (by simp [Kept])

/-- The converted builder fields whose conversion may fail are closed enumerations. -/
theorem build_mayFail : (allPackets.all fun d => d.kind != .recvSend || d.fields.all fun f =>
    f.ty != .tail && f.sizeFn.isNone &&
    (!f.mayFail || match f.map with
      | some (.enum e) => e.rest == some .errorProne
      | _ => false)) = true := by
  decide +kernel

theorem build_mayFail' {d : PackDesc} (hd : d ∈ allPackets) (hk : d.kind = .recvSend)
    {f : FieldDesc} (hf : f ∈ d.fields) :
    f.ty ≠ .tail ∧ f.sizeFn = none ∧
    (f.mayFail = true → ∃ e, f.map = some (.enum e) ∧ e.rest = some .errorProne) := by
  have h := List.all_eq_true.mp build_mayFail d hd
  rw [hk, show ((PackKind.recvSend != PackKind.recvSend) = false) from rfl, Bool.false_or] at h
  have h := List.all_eq_true.mp h f hf
  simp only [Bool.and_eq_true, bne_iff_ne, Option.isNone_iff_eq_none] at h
  refine ⟨h.1.1, h.1.2, fun hm => ?_⟩
  have h := h.2
  rw [hm, Bool.not_true, Bool.false_or] at h
  revert h
  cases f.map with
  | none => simp
  | some c => cases c <;> simp

/-- The payload of a built packet passes the packet's own validation. -/
theorem built_valid {d : PackDesc} (hd : d ∈ allPackets) (hk : d.kind = .recvSend) {b : Builder}
    (h : Buildable d.fields b) {p : Bytes} (hp : PayloadOf d.fields b p) : Valid d p := by
  have hlen := payloadOf_length h.1 hp
  constructor
  · unfold LenOk required
    have ht : d.fields.any (fun f => f.ty == .tail) = false := by
      rw [List.any_eq_false]
      intro f hf
      simpa using (build_mayFail' hd hk hf).1
    have hs : d.fields.filterMap (·.sizeFn) = [] := by
      rw [List.filterMap_eq_nil_iff]
      intro f hf
      exact (build_mayFail' hd hk hf).2.1
    rw [ht, hs, if_neg (by simp), if_neg (by omega)]
    simpa using hlen
  · intro i f hf hm
    have hfm := List.mem_of_getElem? hf
    obtain ⟨ht, -, he⟩ := build_mayFail' hd hk hfm
    obtain ⟨e, he, hrest⟩ := he hm
    have hi : i < b.length := by rw [h.1]; exact (List.getElem?_eq_some_iff.mp hf).1
    have hv := List.getElem?_eq_getElem hi
    obtain ⟨r, hr, hd'⟩ := payloadOf_slot h.1 hp hf hv
    have hty := (h.2 i f _ hf hv).1
    rw [he]
    have hw := readable_wf d hd (by rw [hk]; decide)
    simp only [PackDesc.wf, Bool.and_eq_true, List.all_eq_true] at hw
    have hw := hw.1 f hfm
    simp only [FieldDesc.wf, Bool.and_eq_true] at hw
    obtain ⟨-, hw⟩ := hw
    rw [he] at hw
    have hfty : f.ty = .u8 := by revert hw; cases f.ty <;> simp
    unfold fieldBytes
    rw [if_neg ht]
    obtain ⟨hr1, hr2⟩ := hr
    rw [hfty] at hr1
    obtain ⟨w, rfl, hw2⟩ := u8_of_denotes hr1 hd'
    rw [hw2]
    refine ⟨w, rfl, ?_⟩
    unfold HasType at hty
    rw [he] at hr2 hty
    revert hty hr2
    cases b[i] <;> simp only [false_implies, implies_true]
    rename_i x
    intro hx hw'
    simp only [intOf, Option.some.injEq, Int.natCast_inj] at hw'
    rw [UInt8.toNat_inj.mp hw']
    unfold EnumDesc.allVariants at hx
    rw [if_neg (by simp [hrest])] at hx
    exact List.mem_map.mpr ⟨x, hx, rfl⟩

end Ublox
