import Verif.Lemmas.Layout
import Verif.Lemmas.Bits

/-! # `validate` -/

namespace Ublox
open Spec

/-! ## Strings and blocks -/

/-- The part before the first zero is unique. -/
theorem split_unique (u v : Bytes) (hu : 0 ∉ u) (hv : 0 ∉ v) (p q : Bytes)
    (e : u ++ 0 :: p = v ++ 0 :: q) : u = v := by
  induction u generalizing v with
  | nil =>
    cases v with
    | nil => rfl
    | cons b v => simp_all
  | cons a u ih =>
    cases v with
    | nil => simp_all
    | cons b v =>
      simp only [List.cons_append, List.cons.injEq] at e
      simp only [List.mem_cons, not_or] at hu hv
      rw [e.1, ih v hu.2 hv.2 e.2]

/-- The text of a slot is unique. -/
theorem cstr_unique {slot s t : Bytes} (hs : CStr slot s) (ht : CStr slot t) : s = t := by
  obtain ⟨-, h0, r, rfl⟩ := hs
  obtain ⟨-, h0', r', e⟩ := ht
  exact split_unique s t h0 h0' r r' e

theorem split_at_zero (bs : Bytes) :
    (bs.findIdx? (· == 0) = none ∧ 0 ∉ bs) ∨
    ∃ s rest, bs = s ++ 0 :: rest ∧ 0 ∉ s ∧ bs.findIdx? (· == 0) = some s.length := by
  induction bs with
  | nil => left; simp
  | cons b bs ih =>
    by_cases hb : b = 0
    · right; exact ⟨[], bs, by simp [hb], by simp, by simp [List.findIdx?_cons, hb]⟩
    · rcases ih with ⟨h1, h2⟩ | ⟨s, rest, rfl, h2, h3⟩
      · left; simp_all [List.findIdx?_cons]; exact fun h => hb h.symm
      · right
        refine ⟨b :: s, rest, rfl, ?_, ?_⟩
        · simp only [List.mem_cons, not_or]; exact ⟨fun h => hb h.symm, h2⟩
        · rw [List.findIdx?_cons, h3]; simp [hb]

theorem isCstrValid_eq (bs : Bytes) :
    ∃ b, MonVer.isCstrValid bs = .ok b ∧ (b = true ↔ ∃ s, CStr bs s) := by
  unfold MonVer.isCstrValid
  rcases split_at_zero bs with ⟨h1, h2⟩ | ⟨s, rest, rfl, h2, h3⟩
  · rw [h1]
    refine ⟨false, rfl, by simp, ?_⟩
    rintro ⟨s, -, -, r, rfl⟩
    simp at h2
  · rw [h3]
    simp only
    rw [sliceRange_ok (by omega) (by simp), Except.ok_bind]
    refine ⟨_, rfl, ?_⟩
    have e : ((s ++ 0 :: rest).drop 0).take (s.length - 0) = s := by simp
    rw [e, utf8Valid_iff]
    constructor
    · intro h; exact ⟨s, h, h2, rest, rfl⟩
    · rintro ⟨t, hu, h0', r', e'⟩
      exact split_unique s t h2 h0' rest r' e' ▸ hu

/-- Reading the text of a valid slot. -/
theorem convertToStrUnchecked_eq {bs s : Bytes} (h : CStr bs s) :
    MonVer.convertToStrUnchecked bs = .ok s := by
  obtain ⟨hu, h0, rest, rfl⟩ := h
  unfold MonVer.convertToStrUnchecked
  rcases split_at_zero (s ++ 0 :: rest) with ⟨h1, h2⟩ | ⟨t, rest', e, h2, h3⟩
  · simp at h2
  · have : s = t := split_unique s t h0 h2 _ _ e
    subst this
    rw [h3]
    have hs : sliceRange (s ++ 0 :: rest) 0 s.length = .ok s := by
      rw [sliceRange_ok (by omega) (by simp)]; simp
    simp only [bind, Except.bind, pure, Except.pure, hs]
    rw [if_pos ((utf8Valid_iff s).mpr hu)]

theorem chunks_eq {n : Nat} (hn : 0 < n) (bs : Bytes) (hd : n ∣ bs.length) :
    chunks n bs = (List.range (bs.length / n)).map (block n bs) := by
  obtain ⟨k, hk⟩ := hd
  induction k generalizing bs with
  | zero =>
    have : bs = [] := List.length_eq_zero_iff.mp (by simpa using hk)
    subst this
    rw [chunks]; simp
  | succ k ih =>
    have hne : bs ≠ [] := by
      intro h; subst h
      rw [List.length_nil] at hk
      have : 0 < n * (k + 1) := Nat.mul_pos hn (Nat.succ_pos k)
      omega
    have hl : n ≤ bs.length := by
      rw [hk]; exact Nat.le_mul_of_pos_right n (by omega)
    rw [chunks, dif_neg (by simp only [not_or]; exact ⟨hne, by omega⟩)]
    have hd : (bs.drop n).length = n * k := by
      rw [List.length_drop, hk, Nat.mul_succ]; omega
    rw [ih (bs.drop n) hd, hd, hk, Nat.mul_div_cancel_left _ hn, Nat.mul_div_cancel_left _ hn,
      List.range_succ_eq_map, List.map_cons, List.map_map]
    congr 1
    · apply List.map_congr_left
      intro i _
      simp only [block, Function.comp, List.drop_drop, Nat.mul_succ]
      rw [Nat.add_comm]

theorem allR_eq {α : Type} (f : α → R Bool) (P : α → Prop) (l : List α)
    (h : ∀ x ∈ l, ∃ b, f x = .ok b ∧ (b = true ↔ P x)) :
    ∃ b, allR f l = .ok b ∧ (b = true ↔ ∀ x ∈ l, P x) := by
  induction l with
  | nil => exact ⟨true, rfl, by simp⟩
  | cons x l ih =>
    obtain ⟨b, hb, hb'⟩ := h x (by simp)
    obtain ⟨c, hc, hc'⟩ := ih fun y hy => h y (by simp [hy])
    unfold allR
    rw [hb, Except.ok_bind]
    cases b with
    | true =>
      refine ⟨c, by simpa using hc, ?_⟩
      rw [hc']; simp [hb'.mp rfl]
    | false =>
      refine ⟨false, rfl, ?_⟩
      have : ¬ P x := fun hp => by simpa using hb'.mpr hp
      simp [this]

theorem iterIsValid_eq (k : IterKind) (bs : Bytes) :
    ∃ b, k.isValid bs = .ok b ∧ (b = true ↔ blockSize k ∣ bs.length ∧
      (k = .monVerExt → ∀ i < bs.length / 30, ∃ s, CStr (block 30 bs i) s)) := by
  cases k with
  | monVerExt =>
    simp only [IterKind.isValid, blockSize, forall_const]
    by_cases hd : 30 ∣ bs.length
    · rw [if_pos (by simp; omega), chunks_eq (by omega) bs hd]
      obtain ⟨b, hb, hb'⟩ := allR_eq MonVer.isCstrValid (fun x => ∃ s, CStr x s)
        ((List.range (bs.length / 30)).map (block 30 bs)) (fun x _ => isCstrValid_eq x)
      refine ⟨b, hb, ?_⟩
      rw [hb']
      simp [hd]
    · rw [if_neg (by simp; omega)]
      exact ⟨false, rfl, by simp [hd]⟩
  | _ =>
    refine ⟨_, rfl, ?_⟩
    simp [blockSize, Nat.dvd_iff_mod_eq_zero]

/-! ## Static facts about declarations -/

/-- What the macros and the compiler guarantee for a field that is read. -/
def FieldDesc.wf (f : FieldDesc) : Bool :=
  (f.ty != .bytes 0) &&
  (!f.getAsRef || (match f.ty with | .bytes _ => true | .tail => true | _ => false)) &&
  (match f.map, f.ty with
    | none, _ => !f.mayFail && f.scale.isNone
    | some (.enum e), .u8 =>
      f.scale.isNone &&
      (if f.mayFail then e.fromFn == some .fromUnchecked && e.rest != some .reserved
       else e.fromFn == some .from && e.rest == some .reserved)
    | some .cstr, .bytes _ => f.mayFail && f.scale.isNone
    | some (.iter _), .tail => f.mayFail && f.scale.isNone
    | some .infStr, .tail => f.mayFail && f.scale.isNone
    | some .calibTag, .tail => !f.mayFail && f.scale.isNone
    | some (.flags d), .u8 => !f.mayFail && d.from_ && d.nbits == 8 && f.scale.isNone
    | some (.flags d), .u16 => !f.mayFail && d.from_ && d.nbits == 16 && f.scale.isNone
    | some (.flags d), .u32 => !f.mayFail && d.from_ && d.nbits == 32 && f.scale.isNone
    | some .f64, ty => !f.mayFail && (ty == .u8 || ty == .i8 || ty == .u16 || ty == .i16 || ty == .u32 || ty == .i32)
    | some .f32, ty => !f.mayFail && (ty == .u8 || ty == .i8 || ty == .u16 || ty == .i16)
    | some .fixStatusInfo, .u8 => !f.mayFail && f.scale.isNone
    | some .navSatSvFlags, .u32 => !f.mayFail && f.scale.isNone
    | some .timTpFlags, .u8 => !f.mayFail && f.scale.isNone
    | some .timTpRefInfo, .u8 => !f.mayFail && f.scale.isNone
    | some .timTm2Flags, .u8 => !f.mayFail && f.scale.isNone
    | some .uartMode, .u32 => !f.mayFail && f.scale.isNone
    | some .itfmConfig, .u32 => !f.mayFail && f.scale.isNone
    | some .itfmConfig2, .u32 => !f.mayFail && f.scale.isNone
    | _, _ => false)

/-- Static facts about the sizes. -/
def PackDesc.wfLen (d : PackDesc) : Bool :=
  if d.fields.any (fun f => f.ty == .tail) then
    if (d.fields.filterMap (·.sizeFn)).isEmpty then d.sizeExceptLast == some (total d.fields)
    else d.sizeExceptSizeFn == some (total d.fields) && decide (6 ≤ total d.fields) &&
      (match d.getters.find? fun g => g.field.getName == "flags" with
        | some g => g.off == 4 && g.field.ty == .u16 && g.field.map.isNone
        | none => false)
  else (d.fields.filterMap (·.sizeFn)).isEmpty

/-- Static facts about a declaration that is read. -/
def PackDesc.wf (d : PackDesc) : Bool := d.fields.all (·.wf) && d.wfLen

theorem PackDesc.wf_field {d : PackDesc} (h : d.wf = true) {i : Nat} {f : FieldDesc}
    (hf : d.fields[i]? = some f) : f.wf = true := by
  simp only [PackDesc.wf, Bool.and_eq_true, List.all_eq_true] at h
  exact h.1 f (List.mem_of_getElem? hf)

theorem FieldDesc.wf_width {f : FieldDesc} (h : f.wf = true) : width f.ty = 0 ↔ f.ty = .tail := by
  unfold FieldDesc.wf at h
  simp only [Bool.and_eq_true, bne_iff_ne] at h
  have := h.1.1
  rcases hty : f.ty with _ | _ | _ | _ | _ | _ | _ | _ | n | _ <;> simp_all [width]

theorem FieldDesc.wf_ref {f : FieldDesc} (h : f.wf = true) (hw : width f.ty ≠ 0)
    (hr : f.getAsRef = true) : ∃ n, f.ty = .bytes n := by
  unfold FieldDesc.wf at h
  simp only [Bool.and_eq_true, hr] at h
  have := h.1.2
  rcases hty : f.ty with _ | _ | _ | _ | _ | _ | _ | _ | n | _ <;> simp_all [width]

theorem fieldBytes_length {fs : List FieldDesc} {i : Nat} {f : FieldDesc} (hf : fs[i]? = some f)
    (ht : f.ty ≠ .tail) {payload : Bytes} (hl : total fs ≤ payload.length) :
    (fieldBytes fs i f payload).length = width f.ty := by
  have := start_add_le_total hf
  unfold fieldBytes
  rw [if_neg ht]
  simp
  omega

theorem getters_getElem? {d : PackDesc} {i : Nat} {f : FieldDesc} (hf : d.fields[i]? = some f) :
    ∃ sf, d.getters[i]? = some ⟨f, start d.fields i, sf⟩ := by
  unfold PackDesc.getters
  rw [genGetters_getElem?, hf]
  simp

theorem getters_of {d : PackDesc} {i : Nat} {g : Getter} (hg : d.getters[i]? = some g) :
    d.fields[i]? = some g.field ∧ g.off = start d.fields i := by
  unfold PackDesc.getters at hg
  rw [genGetters_getElem?] at hg
  cases h : d.fields[i]? with
  | none => rw [h] at hg; simp at hg
  | some f =>
    rw [h] at hg
    simp only [Option.map_some, Option.some.injEq] at hg
    subst hg
    simp

theorem getters_length (d : PackDesc) : d.getters.length = d.fields.length := by
  have := congrArg List.length (genGetters_map_field d.fields 0 [])
  simpa [PackDesc.getters] using this

theorem u8_of_denotes {r : RawVal} {bs : Bytes} (ht : r.ofTy .u8 = true) (hd : Denotes r bs) :
    ∃ b, r = .u8 b ∧ bs = [b] := by
  cases r <;> simp [RawVal.ofTy] at ht
  rename_i v
  exact ⟨v, rfl, hd.bytes_unique⟩

theorem EnumDesc.isValid_eq (e : EnumDesc) (h : e.rest ≠ some .reserved) (x : UInt8) :
    e.isValid x = true ↔ x ∈ e.variants.map (·.2) := by
  unfold EnumDesc.isValid EnumDesc.allVariants
  rw [if_neg h]
  simp only [List.contains_eq_mem, decide_eq_true_eq]

theorem check_eq {d : PackDesc} (hwf : d.wf = true) {i : Nat} {g : Getter}
    (hg : d.getters[i]? = some g) {payload : Bytes} (hl : total d.fields ≤ payload.length) :
    ∃ b, g.check payload = .ok b ∧
      (b = true ↔ FieldValid g.field (fieldBytes d.fields i g.field payload)) := by
  obtain ⟨hf, ho⟩ := getters_of hg
  have hfw := PackDesc.wf_field hwf hf
  have hst := start_add_le_total hf
  have hw := FieldDesc.wf_width hfw
  have hrf := FieldDesc.wf_ref hfw
  have hfb : g.field.ty ≠ .tail → ∃ r, getRawField g.field g.off payload = .ok r ∧
      r.ofTy g.field.ty = true ∧ Denotes r (fieldBytes d.fields i g.field payload) := by
    intro ht
    unfold fieldBytes
    rw [if_neg ht, ho]
    exact getRawField_ok (fun h => ht (hw.mp h)) (by omega) (hrf (fun h => ht (hw.mp h)))
  have htb : g.field.ty = .tail → sliceFrom payload g.off =
      .ok (fieldBytes d.fields i g.field payload) := by
    intro ht
    unfold fieldBytes
    rw [if_pos ht, ho, sliceFrom_ok (by omega)]
  generalize fieldBytes d.fields i g.field payload = fb at hfb htb ⊢
  unfold Getter.check FieldValid
  by_cases hm : g.field.mayFail = true
  · simp only [FieldDesc.wf, Bool.and_eq_true] at hfw
    obtain ⟨⟨-, -⟩, hfw⟩ := hfw
    split at hfw <;> simp_all only [Bool.and_eq_true, Bool.not_true, Bool.false_and, Bool.false_eq_true,
      forall_const, reduceIte]
    · rename_i e _ _
      obtain ⟨r, h1, h2, h3⟩ := hfb (by simp)
      obtain ⟨b, rfl, rfl⟩ := u8_of_denotes h2 h3
      refine ⟨e.isValid b, ?_, ?_⟩
      · simp [RawTy.size, h1, Conv.isValid, bind, Except.bind]
      · rw [EnumDesc.isValid_eq e (by simpa using hfw.2.2)]
        simp
    · rename_i n _ _
      obtain ⟨r, h1, h2, h3⟩ := hfb (by simp)
      have hs : (RawTy.bytes n).size = some n := by
        have := size_eq (.bytes n)
        rw [this, if_neg]
        · rfl
        · intro h0; exact absurd (hw.mp h0) (by simp)
      cases r <;> simp [RawVal.ofTy] at h2
      rename_i bs
      have hb : fb = bs := h3
      subst hb
      simp only [hs, h1, Except.ok_bind, Conv.isValid]
      exact isCstrValid_eq fb
    · rename_i k _ _
      have hs : RawTy.tail.size = none := rfl
      simp only [hs, Except.ok_bind, Conv.isValid]
      exact iterIsValid_eq k fb
    · have hs : RawTy.tail.size = none := rfl
      simp only [hs, Except.ok_bind, Conv.isValid]
      exact ⟨true, rfl, by simp⟩
  · refine ⟨true, ?_, by simp [hm]⟩
    split
    · rfl
    · rw [if_neg hm]

theorem runChecks_drop {d : PackDesc} (hwf : d.wf = true) {payload : Bytes}
    (hl : total d.fields ≤ payload.length) (k : Nat) :
    (runChecks d payload (d.getters.drop k) = .ok (.ok ()) ∧
      ∀ j f, k ≤ j → d.fields[j]? = some f → FieldValid f (fieldBytes d.fields j f payload)) ∨
    ∃ i f, k ≤ i ∧ d.fields[i]? = some f ∧ ¬ FieldValid f (fieldBytes d.fields i f payload) ∧
      (∀ j g, k ≤ j → j < i → d.fields[j]? = some g →
        FieldValid g (fieldBytes d.fields j g payload)) ∧
      runChecks d payload (d.getters.drop k) = .ok (.error (.invalidField d.name f.getName)) := by
  generalize hn : d.getters.length - k = n
  induction n generalizing k with
  | zero =>
    left
    rw [List.drop_eq_nil_of_le (by omega)]
    refine ⟨rfl, fun j f hj hf => ?_⟩
    have := getters_length d
    rw [List.getElem?_eq_none (by omega)] at hf
    cases hf
  | succ n ih =>
    have hk : k < d.getters.length := by omega
    have hg : d.getters[k]? = some d.getters[k] := List.getElem?_eq_getElem hk
    obtain ⟨hf, -⟩ := getters_of hg
    obtain ⟨b, hb, hb'⟩ := check_eq hwf hg hl
    rw [List.drop_eq_getElem_cons hk]
    unfold runChecks
    rw [hb, Except.ok_bind]
    cases b with
    | false =>
      right
      refine ⟨k, _, by omega, hf, fun h => by simpa using hb'.mpr h, fun j g h1 h2 => by omega, rfl⟩
    | true =>
      have hv := hb'.mp rfl
      simp only [if_true]
      rcases ih (k + 1) (by omega) with ⟨h1, h2⟩ | ⟨i, f, h1, h2, h3, h4, h5⟩
      · left
        refine ⟨h1, fun j f hj hfj => ?_⟩
        by_cases hjk : j = k
        · subst hjk
          rw [hf] at hfj
          injection hfj with hfj
          exact hfj ▸ hv
        · exact h2 j f (by omega) hfj
      · right
        refine ⟨i, f, by omega, h2, h3, fun j g hj hji hfj => ?_, h5⟩
        by_cases hjk : j = k
        · subst hjk
          rw [hf] at hfj
          injection hfj with hfj
          exact hfj ▸ hv
        · exact h4 j g (by omega) hji hfj

theorem fieldsSize_eq (fs : List FieldDesc) :
    fieldsSize fs = if fs.any (fun f => width f.ty == 0) then none else some (total fs) := by
  induction fs with
  | nil => rfl
  | cons f fs ih =>
    unfold fieldsSize
    rw [ih, List.any_cons, total_cons]
    by_cases hw : width f.ty = 0
    · rw [size_none hw]; simp [hw]
    · rw [size_some hw]
      simp only [Bool.false_or, beq_eq_false_iff_ne.mpr hw]
      split <;> rfl

theorem any_tail_eq {d : PackDesc} (hwf : d.wf = true) :
    d.fields.any (fun f => width f.ty == 0) = d.fields.any (fun f => f.ty == .tail) := by
  simp only [PackDesc.wf, Bool.and_eq_true, List.all_eq_true] at hwf
  have := hwf.1
  rw [Bool.eq_iff_iff, List.any_eq_true, List.any_eq_true]
  constructor
  · rintro ⟨f, hf, h⟩
    exact ⟨f, hf, by simpa using (FieldDesc.wf_width (this f hf)).mp (by simpa using h)⟩
  · rintro ⟨f, hf, h⟩
    exact ⟨f, hf, by simpa using (FieldDesc.wf_width (this f hf)).mpr (by simpa using h)⟩

/-- The accessor `flags` used by the size functions. -/
theorem flagsOf_eq {d : PackDesc} (hwf : d.wf = true)
    (hs : (d.fields.filterMap (·.sizeFn)).isEmpty = false) {payload : Bytes}
    (hl : total d.fields ≤ payload.length) :
    ∃ x, flagsOf d payload = .ok x ∧ x.toNat = leNat ((payload.drop 4).take 2) := by
  have hwf' := hwf
  simp only [PackDesc.wf, Bool.and_eq_true] at hwf
  have hlen := hwf.2
  unfold PackDesc.wfLen at hlen
  rw [hs] at hlen
  split at hlen
  · simp only [Bool.false_eq_true, if_false, Bool.and_eq_true, decide_eq_true_eq] at hlen
    obtain ⟨⟨-, h6⟩, hfl⟩ := hlen
    unfold flagsOf
    split at hfl
    · rename_i g hg
      rw [hg]
      simp only [Bool.and_eq_true, beq_iff_eq] at hfl
      obtain ⟨⟨ho, hty⟩, hmap⟩ := hfl
      have hmem := List.mem_of_find?_eq_some hg
      obtain ⟨i, hi, hgi⟩ := List.mem_iff_getElem.mp hmem
      have hgi' : d.getters[i]? = some g := by rw [List.getElem?_eq_getElem hi, hgi]
      obtain ⟨hf, -⟩ := getters_of hgi'
      have hfw := PackDesc.wf_field hwf' hf
      have hw2 : width g.field.ty = 2 := by rw [hty]; rfl
      obtain ⟨r, h1, h2, h3⟩ := getRawField_ok (f := g.field) (off := g.off) (data := payload)
        (by omega) (by omega) (FieldDesc.wf_ref hfw (by omega))
      rw [hty] at h2
      cases r <;> simp [RawVal.ofTy] at h2
      rename_i v
      have hsc : g.field.scale = none := by
        simp only [FieldDesc.wf, Bool.and_eq_true] at hfw
        have := hfw.2
        rw [Option.isNone_iff_eq_none] at hmap
        rw [hmap] at this
        simp at this
        exact this.2
      have hrun : g.runSized payload = .ok (.raw (.u16 v)) := by
        unfold Getter.runSized FieldDesc.convert
        rw [h1, Except.ok_bind, Option.isNone_iff_eq_none.mp hmap, hsc]
        rfl
      refine ⟨v, ?_, ?_⟩
      · simp only [hrun, Except.ok_bind]; rfl
      · rw [ho, hw2] at h3; exact h3.2
    · cases hfl
  · cases hlen

theorem sizeFn_run_eq {d : PackDesc} (hwf : d.wf = true)
    (hs : (d.fields.filterMap (·.sizeFn)).isEmpty = false) {payload : Bytes}
    (hl : total d.fields ≤ payload.length) (s : SizeFn) :
    s.run d payload = .ok (announcedSize payload s) := by
  obtain ⟨x, hx, hx'⟩ := flagsOf_eq hwf hs hl
  unfold SizeFn.run
  rw [hx, Except.ok_bind]
  unfold announcedSize
  rw [← hx']
  cases s with
  | dataLen =>
    simp only [pure, Except.pure]
    congr 1
    have : ((x >>> 11) &&& 0x1f).toNat = field x.toNat 11 5 := by
      unfold field
      rw [UInt16.toNat_and, UInt16.toNat_shiftRight]
      have e1 : (0x1f : UInt16).toNat = 2 ^ 5 - 1 := rfl
      have e2 : (11 : UInt16).toNat % 16 = 11 := rfl
      rw [e1, e2, Nat.and_two_pow_sub_one_eq_mod, Nat.shiftRight_eq_div_pow]
    rw [this, Nat.mul_comm]
  | calibTagLen =>
    simp only [pure, Except.pure]
    congr 1
    have : (x &&& 0x8 != 0) = bit x.toNat 3 := by
      rw [Bool.eq_iff_iff, bne_iff_ne, ne_eq, ← UInt16.toNat_inj, UInt16.toNat_and]
      have e1 : (0x8 : UInt16).toNat = 2 ^ 3 := rfl
      have e2 : (0 : UInt16).toNat = 0 := rfl
      rw [e1, e2]
      unfold bit
      have e3 := and_two_pow_eq x.toNat 3
      have e4 : x.toNat.testBit 3 = (x.toNat / 2 ^ 3 % 2 == 1) := by
        rw [Nat.testBit_eq_decide_div_mod_eq]; rfl
      rw [e3, ← e4]
      cases x.toNat.testBit 3 <;> simp
    rw [this]

theorem sumSizeFns_eq {d : PackDesc} (hwf : d.wf = true)
    (hs : (d.fields.filterMap (·.sizeFn)).isEmpty = false) {payload : Bytes}
    (hl : total d.fields ≤ payload.length) (acc : Nat) (l : List SizeFn) :
    sumSizeFns d payload acc l = .ok (acc + (l.map (announcedSize payload)).sum) := by
  induction l generalizing acc with
  | nil => simp [sumSizeFns]
  | cons s l ih =>
    unfold sumSizeFns
    rw [sizeFn_run_eq hwf hs hl, Except.ok_bind, ih]
    simp [Nat.add_assoc]

/-- Acceptable payloads contain all fields of fixed size. -/
theorem lenOk_total_le {d : PackDesc} {payload : Bytes} (h : LenOk d payload) :
    total d.fields ≤ payload.length := by
  unfold LenOk required at h
  split at h <;> split at h <;> omega

/-- What `validate` does. -/
theorem validate_eq {d : PackDesc} (hwf : d.wf = true) (payload : Bytes) :
    (LenOk d payload ∧ d.validate payload = runChecks d payload d.getters) ∨
    (¬ LenOk d payload ∧ d.validate payload =
      .ok (.error (.invalidPacketLen d.name (required d payload) payload.length))) := by
  have hwl : d.wfLen = true := by
    simp only [PackDesc.wf, Bool.and_eq_true] at hwf; exact hwf.2
  have hp : d.packetPayloadSize =
      if d.fields.any (fun f => f.ty == .tail) then none else some (total d.fields) := by
    unfold PackDesc.packetPayloadSize
    rw [fieldsSize_eq, any_tail_eq hwf]
  unfold PackDesc.validate
  rw [hp]
  unfold PackDesc.wfLen at hwl
  by_cases ht : d.fields.any (fun f => f.ty == .tail) = true
  · rw [if_pos ht] at hwl
    rw [if_pos ht]
    simp only
    by_cases hs : (d.fields.filterMap (·.sizeFn)).isEmpty = true
    · rw [if_pos hs] at hwl
      rw [if_pos hs]
      simp only [beq_iff_eq] at hwl
      rw [hwl]
      simp only
      have hreq : required d payload = total d.fields := by
        unfold required
        rw [List.isEmpty_iff.mp hs]
        simp
      unfold LenOk
      rw [if_pos ht, hreq]
      by_cases hc : total d.fields ≤ payload.length
      · left; rw [if_pos hc]; exact ⟨hc, rfl⟩
      · right; rw [if_neg hc]; exact ⟨hc, rfl⟩
    · rw [if_neg hs] at hwl
      rw [if_neg hs]
      have hsf : (d.fields.filterMap (·.sizeFn)).isEmpty = false := by simpa using hs
      simp only [Bool.and_eq_true, beq_iff_eq] at hwl
      rw [hwl.1.1]
      simp only [Option.getD_some]
      unfold LenOk
      rw [if_pos ht]
      by_cases hc : payload.length < total d.fields
      · right
        rw [if_pos hc]
        unfold required
        rw [if_pos hc]
        exact ⟨by omega, rfl⟩
      · rw [if_neg hc, sumSizeFns_eq hwf hsf (by omega), Except.ok_bind]
        unfold required
        rw [if_neg hc]
        by_cases hc2 : total d.fields +
            ((d.fields.filterMap (·.sizeFn)).map (announcedSize payload)).sum ≤ payload.length
        · left; rw [if_pos hc2]; exact ⟨hc2, rfl⟩
        · right; rw [if_neg hc2]; exact ⟨hc2, rfl⟩
  · rw [if_neg ht] at hwl
    rw [if_neg ht]
    simp only
    have hreq : required d payload = total d.fields := by
      unfold required
      rw [List.isEmpty_iff.mp hwl]
      simp
    unfold LenOk
    rw [if_neg ht, hreq]
    by_cases hc : payload.length = total d.fields
    · left; rw [if_pos hc]; exact ⟨hc, rfl⟩
    · right; rw [if_neg hc]; exact ⟨hc, rfl⟩

/-- The three outcomes of `validate`. -/
theorem validate_cases {d : PackDesc} (hwf : d.wf = true) (payload : Bytes) :
    (Valid d payload ∧ d.validate payload = .ok (.ok ())) ∨
    (¬ LenOk d payload ∧ d.validate payload =
      .ok (.error (.invalidPacketLen d.name (required d payload) payload.length))) ∨
    (∃ i f, LenOk d payload ∧ FirstInvalid d payload i f ∧
      d.validate payload = .ok (.error (.invalidField d.name f.getName))) := by
  rcases validate_eq hwf payload with ⟨hl, he⟩ | h
  · rw [he]
    have := runChecks_drop hwf (lenOk_total_le hl) 0
    simp only [List.drop_zero, Nat.zero_le, true_implies, true_and] at this
    rcases this with ⟨h1, h2⟩ | ⟨i, f, h2, h3, h4, h5⟩
    · left; exact ⟨⟨hl, h2⟩, h1⟩
    · right; right; exact ⟨i, f, hl, ⟨h2, h3, h4⟩, h5⟩
  · right; left; exact h

theorem validate_ok_iff {d : PackDesc} (hwf : d.wf = true) (payload : Bytes) :
    d.validate payload = .ok (.ok ()) ↔ Valid d payload := by
  rcases validate_cases hwf payload with ⟨h1, h2⟩ | ⟨h1, h2⟩ | ⟨i, f, h1, h2, h3⟩
  · rw [h2]; simp [h1]
  · rw [h2]; simp; exact fun h => h1 h.1
  · rw [h3]; simp; exact fun h => h2.2.1 (h.2 i f h2.1)

theorem validate_total {d : PackDesc} (hwf : d.wf = true) (payload : Bytes) :
    ∃ r, d.validate payload = .ok r := by
  rcases validate_cases hwf payload with ⟨h1, h2⟩ | ⟨h1, h2⟩ | ⟨i, f, h1, h2, h3⟩
  · exact ⟨_, h2⟩
  · exact ⟨_, h2⟩
  · exact ⟨_, h3⟩

end Ublox
