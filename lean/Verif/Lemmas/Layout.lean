import Verif.Lemmas.Raw
import Verif.Lemmas.Types
import Verif.Lemmas.Buffer
import Verif.Lemmas.Utf8
import Verif.Spec.Packet

/-! # Layout of payloads: offsets, accessors of fields of fixed size -/

namespace Ublox
open Spec

theorem size_eq (ty : RawTy) : ty.size = if width ty = 0 then none else some (width ty) := by
  cases ty <;> simp [RawTy.size, width]
  rfl

theorem size_some {ty : RawTy} (h : width ty ≠ 0) : ty.size = some (width ty) := by
  rw [size_eq, if_neg h]

theorem size_none {ty : RawTy} (h : width ty = 0) : ty.size = none := by
  rw [size_eq, if_pos h]

theorem total_nil : total [] = 0 := rfl

theorem total_cons (f : FieldDesc) (fs : List FieldDesc) :
    total (f :: fs) = width f.ty + total fs := by simp [total]

theorem start_zero (fs : List FieldDesc) : start fs 0 = 0 := by simp [start, total]

theorem start_succ (f : FieldDesc) (fs : List FieldDesc) (i : Nat) :
    start (f :: fs) (i + 1) = width f.ty + start fs i := by simp [start, total]

theorem start_add_width {fs : List FieldDesc} {i : Nat} {f : FieldDesc} (h : fs[i]? = some f) :
    start fs (i + 1) = start fs i + width f.ty := by
  induction fs generalizing i with
  | nil => simp at h
  | cons g fs ih =>
    cases i with
    | zero =>
      simp only [List.getElem?_cons_zero, Option.some.injEq] at h
      subst h; simp [start, total]
    | succ i =>
      rw [List.getElem?_cons_succ] at h
      rw [start_succ, start_succ, ih h]; omega

theorem start_le_total (fs : List FieldDesc) (i : Nat) : start fs i ≤ total fs := by
  induction fs generalizing i with
  | nil => simp [start, total]
  | cons g fs ih =>
    cases i with
    | zero => rw [start_zero]; omega
    | succ i => rw [start_succ, total_cons]; have := ih i; omega

theorem start_add_le_total {fs : List FieldDesc} {i : Nat} {f : FieldDesc} (h : fs[i]? = some f) :
    start fs i + width f.ty ≤ total fs := by
  rw [← start_add_width h]; exact start_le_total fs (i + 1)

/-- The offsets that the macro computes are the sums of the sizes of the fields before. -/
theorem genGetters_getElem? (fs : List FieldDesc) (off : Nat) (sf : List SizeFn) (i : Nat) :
    (genGetters fs off sf)[i]? = fs[i]?.map fun f =>
      ⟨f, off + start fs i, sf ++ ((fs.take i).filter fun f => width f.ty == 0).filterMap (·.sizeFn)⟩ := by
  induction fs generalizing off sf i with
  | nil => simp [genGetters]
  | cons f fs ih =>
    unfold genGetters
    by_cases hw : width f.ty = 0
    · rw [size_none hw]
      simp only
      cases i with
      | zero => simp [start_zero]
      | succ i =>
        rw [List.getElem?_cons_succ, ih, List.getElem?_cons_succ]
        simp only [start_succ, hw, List.take_succ_cons, Nat.zero_add]
        rw [List.filter_cons_of_pos (by simp [hw])]
        rw [List.filterMap_cons]
        cases f.sizeFn <;> simp
    · rw [size_some hw]
      simp only
      cases i with
      | zero => simp [start_zero]
      | succ i =>
        rw [List.getElem?_cons_succ, ih, List.getElem?_cons_succ]
        simp only [start_succ, List.take_succ_cons]
        rw [List.filter_cons_of_neg (by simp [hw])]
        simp [Nat.add_assoc]

theorem genGetters_map_field (fs : List FieldDesc) (off : Nat) (sf : List SizeFn) :
    (genGetters fs off sf).map (·.field) = fs := by
  induction fs generalizing off sf with
  | nil => rfl
  | cons f fs ih =>
    unfold genGetters
    split <;> simp [ih]

theorem readBytes_eq (data : Bytes) (off n : Nat) (h : off + n ≤ data.length) :
    readBytes data off n = .ok ((data.drop off).take n) := by
  induction n generalizing off with
  | zero => simp [readBytes]
  | succ n ih =>
    unfold readBytes
    rw [getByte_ok (by omega), Except.ok_bind, ih (off + 1) (by omega), Except.ok_bind]
    have : data.drop off = data[off] :: data.drop (off + 1) := by
      rw [List.drop_eq_getElem_cons]
    rw [this]
    rfl

/-- The raw part of an accessor. -/
theorem getRawField_ok {f : FieldDesc} {off : Nat} {data : Bytes} (hw : width f.ty ≠ 0)
    (hl : off + width f.ty ≤ data.length) (href : f.getAsRef = true → ∃ n, f.ty = .bytes n) :
    ∃ r, getRawField f off data = .ok r ∧ r.ofTy f.ty = true ∧
      Denotes r ((data.drop off).take (width f.ty)) := by
  have hlen : ((data.drop off).take (width f.ty)).length = width f.ty := by simp; omega
  unfold getRawField
  rw [size_some hw]
  simp only
  by_cases hr : f.getAsRef = true
  · obtain ⟨n, hn⟩ := href hr
    rw [if_pos hr, sliceRange_ok (by omega) hl, Except.ok_bind]
    refine ⟨_, rfl, ?_, ?_⟩
    · rw [hn] at hw hlen ⊢
      simp only [width] at hw hlen
      simp only [RawVal.ofTy, Bool.and_eq_true, beq_iff_eq, bne_iff_ne, width]
      refine ⟨?_, hw⟩
      rw [show off + n - off = n by omega]
      exact hlen
    · rw [show off + width f.ty - off = width f.ty by omega]
      rfl
  · rw [if_neg hr]
    split
    · rename_i n hn
      rw [readBytes_eq _ _ _ hl, Except.ok_bind]
      refine ⟨_, rfl, ?_, rfl⟩
      rw [hn] at hw hlen ⊢
      simp only [width] at hw hlen
      simp only [RawVal.ofTy, Bool.and_eq_true, beq_iff_eq, bne_iff_ne, width]
      exact ⟨hlen, hw⟩
    · rename_i ty hb
      split
      · rw [readBytes_eq _ _ _ hl, Except.ok_bind]
        obtain ⟨r, hr⟩ := RawTy.fromLeBytes_total (ty := f.ty)
          (bs := (data.drop off).take (width f.ty)) (by rw [hlen, size_some hw]) (by simpa using hb)
        refine ⟨r, hr, RawTy.fromLeBytes_ofTy hr, ?_⟩
        have := RawTy.fromLeBytes_toLeBytes hr
        rw [← this]
        exact RawVal.denotes_toLeBytes r
      · rename_i hn
        have hu : f.ty = .u8 := by
          rcases hty : f.ty with _ | _ | _ | _ | _ | _ | _ | _ | n | _ <;>
            simp_all [width]
        rw [hu] at hl hlen ⊢
        simp only [width] at hl hlen ⊢
        rw [getByte_ok (by omega), Except.ok_bind]
        refine ⟨_, rfl, rfl, ?_⟩
        have : (data.drop off).take 1 = [data[off]] := by
          rw [List.drop_eq_getElem_cons (by omega)]; rfl
        rw [this]
        simp [Denotes, leNat]

/-- A raw value of a type is determined by its bytes. -/
theorem Denotes.unique {r r' : RawVal} {ty : RawTy} {bs : Bytes} (h : Denotes r bs)
    (h' : Denotes r' bs) (ht : r.ofTy ty = true) (ht' : r'.ofTy ty = true) : r = r' := by
  have e := (h.bytes_unique).symm.trans h'.bytes_unique
  by_cases hb : ∃ n, ty = .bytes n
  · obtain ⟨n, rfl⟩ := hb
    cases r <;> simp [RawVal.ofTy] at ht
    cases r' <;> simp [RawVal.ofTy] at ht'
    simp only [RawVal.toLeBytes] at e
    rw [e]
  · have h1 := RawVal.fromLeBytes_of ht (by intro n hn; exact hb ⟨n, hn⟩)
    have h2 := RawVal.fromLeBytes_of ht' (by intro n hn; exact hb ⟨n, hn⟩)
    rw [e] at h1
    rw [h1] at h2
    injection h2

end Ublox
