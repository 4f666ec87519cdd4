import Verif.Model.Derive
import Verif.Spec.Derive
import Verif.Lemmas.Dispatch

/-!
# Lemmas about declarations that the macros accept
-/

namespace Ublox

open Spec

theorem sumSizeFns_inv {d : PackDesc} {p : Bytes} {ss : List SizeFn} {acc m : Nat}
    (h : sumSizeFns d p acc ss = .ok m) :
    ∃ v : SizeFn → Nat, (∀ s ∈ ss, s.run d p = .ok (v s)) ∧ m = acc + (ss.map v).sum := by
  have key : ∀ s ∈ ss, ∃ n, s.run d p = .ok n := by
    induction ss generalizing acc with
    | nil => simp
    | cons s ss ih =>
      unfold sumSizeFns at h
      cases hs : s.run d p with
      | error e => rw [hs] at h; cases h
      | ok n =>
        rw [hs, Except.ok_bind] at h
        intro t ht
        rcases List.mem_cons.mp ht with rfl | ht
        · exact ⟨n, hs⟩
        · exact ih h t ht
  let v : SizeFn → Nat := fun s => (s.run d p).toOption.getD 0
  have hv : ∀ s ∈ ss, s.run d p = .ok (v s) := by
    intro s hs
    obtain ⟨n, hn⟩ := key s hs
    simp only [v, hn]
    rfl
  refine ⟨v, hv, ?_⟩
  clear key
  clear_value v
  induction ss generalizing acc with
  | nil => unfold sumSizeFns at h; cases h; simp
  | cons s ss ih =>
    unfold sumSizeFns at h
    rw [hv s (by simp), Except.ok_bind] at h
    rw [ih h (fun t ht => hv t (by simp [ht]))]
    simp
    omega

theorem sumSizeFns_of {d : PackDesc} {p : Bytes} {ss : List SizeFn} {acc : Nat} {v : SizeFn → Nat}
    (h : ∀ s ∈ ss, s.run d p = .ok (v s)) : sumSizeFns d p acc ss = .ok (acc + (ss.map v).sum) := by
  induction ss generalizing acc with
  | nil => simp [sumSizeFns]
  | cons s ss ih =>
    unfold sumSizeFns
    rw [h s (by simp), Except.ok_bind, ih (fun t ht => h t (by simp [ht]))]
    simp [Nat.add_assoc]

theorem parse_inv {d d' : PackDesc} (h : d.parse = .ok d') :
    d' = d ∧ d.fixedPayloadLen = d.packetPayloadSize ∧
    ∀ (i : Nat) (f : FieldDesc), d.fields[i]? = some f → i + 1 < d.fields.length →
      width f.ty = 0 → f.sizeFn ≠ none := by
  unfold PackDesc.parse at h
  split at h
  · cases h
  split at h
  · cases h
  split at h
  · cases h
  rename_i hfind
  split at h
  · rename_i hs
    refine ⟨by cases h; rfl, hs, ?_⟩
    intro i f hf hi hw hn
    rw [List.find?_eq_none] at hfind
    have hm : f ∈ d.fields.reverse.drop 1 := by
      rw [List.drop_one, List.tail_reverse, List.mem_reverse, List.mem_iff_getElem?]
      refine ⟨i, ?_⟩
      rw [List.getElem?_dropLast, if_pos (by omega)]
      exact hf
    have := hfind f hm
    rw [size_eq, if_pos hw, hn] at this
    simp at this
  · cases h

/-- What a successful `validate` says about the length. -/
theorem validate_length {d : PackDesc} (hacc : d.parse = .ok d) (hord : Ordered d) {p : Bytes}
    (hv : d.validate p = .ok (.ok ())) :
    ∃ v : SizeFn → Nat, (∀ s ∈ d.fields.filterMap (·.sizeFn), s.run d p = .ok (v s)) ∧
      total d.fields + ((d.fields.filterMap (·.sizeFn)).map v).sum ≤ p.length := by
  obtain ⟨-, hfix, hfin⟩ := parse_inv hacc
  unfold PackDesc.validate at hv
  simp only at hv
  cases hps : d.packetPayloadSize with
  | some n =>
    rw [hps] at hv
    unfold PackDesc.packetPayloadSize at hps
    rw [fieldsSize_eq] at hps
    split at hps
    · cases hps
    · rename_i hany
      have hnone : d.fields.filterMap (·.sizeFn) = [] := by
        rw [List.filterMap_eq_nil_iff]
        intro f hf
        apply hord.1 f hf
        intro h0
        exact hany (List.any_eq_true.mpr ⟨f, hf, by simpa using h0⟩)
      rw [hnone]
      simp only at hv
      split at hv
      · rename_i hl
        cases hps
        exact ⟨fun _ => 0, by simp, by simp [hl]⟩
      · cases hv
  | none =>
    rw [hps] at hv
    simp only at hv
    split at hv
    · rename_i he
      have hnone : d.fields.filterMap (·.sizeFn) = [] := by simpa using he
      rw [hnone]
      cases hs : d.sizeExceptLast with
      | none => rw [hs] at hv; cases hv
      | some m =>
        rw [hs] at hv
        simp only at hv
        split at hv
        · rename_i hl
          refine ⟨fun _ => 0, by simp, ?_⟩
          have htot : total d.fields ≤ m := by
            unfold PackDesc.sizeExceptLast at hs
            rw [fieldsSize_eq] at hs
            split at hs
            · cases hs
            · cases hs
              unfold PackDesc.packetPayloadSize at hps
              rw [fieldsSize_eq] at hps
              split at hps
              · rename_i hno hany
                rcases List.eq_nil_or_concat d.fields with h0 | ⟨pre, f, h0⟩
                · rw [h0]; simp
                · rw [h0] at hno hany ⊢
                  rw [List.concat_eq_append, List.dropLast_concat] at *
                  have hw : width f.ty = 0 := by
                    rw [List.any_append, Bool.or_eq_true] at hany
                    rcases hany with hany | hany
                    · exact absurd hany hno
                    · simpa using hany
                  simp [total, hw]
              · cases hps
          simp
          omega
        · cases hv
    · rename_i he
      have hall : ∀ f ∈ d.fields, width f.ty = 0 → f.sizeFn ≠ none := by
        intro f hf hw
        obtain ⟨i, hi⟩ := List.mem_iff_getElem?.mp hf
        have : ∃ g ∈ d.fields, g.sizeFn ≠ none := by
          apply Classical.byContradiction
          intro hno
          apply he
          have : d.fields.filterMap (·.sizeFn) = [] := by
            rw [List.filterMap_eq_nil_iff]
            intro g hg
            exact Classical.byContradiction fun h => hno ⟨g, hg, h⟩
          rw [this]; rfl
        obtain ⟨g, hg, hgs⟩ := this
        obtain ⟨j, hj⟩ := List.mem_iff_getElem?.mp hg
        have hgw : width g.ty = 0 := Classical.byContradiction fun h => hgs (hord.1 g hg h)
        rcases Nat.lt_trichotomy i j with h | rfl | h
        · exact hfin i f hi (by have := (List.getElem?_eq_some_iff.mp hj).1; omega) hw
        · rw [hi] at hj; cases hj; exact hgs
        · exact (hord.2 j i g f h hj hi hgw).2
      have hsz : d.sizeExceptSizeFn = some (total d.fields) := by
        unfold PackDesc.sizeExceptSizeFn
        rw [fieldsSize_eq, if_neg]
        · congr 1
          have : ∀ fs : List FieldDesc, (∀ f ∈ fs, width f.ty ≠ 0 → f.sizeFn = none) →
              total (fs.filter fun f => f.sizeFn.isNone) = total fs := by
            intro fs
            induction fs with
            | nil => simp
            | cons f fs ih =>
              intro h
              have ih := ih fun g hg => h g (by simp [hg])
              by_cases hw : width f.ty = 0
              · rw [total_cons, hw, ← ih, List.filter_cons]
                split
                · rw [total_cons, hw]
                · omega
              · rw [List.filter_cons_of_pos (by simp [h f (by simp) hw]), total_cons, total_cons, ih]
          exact this d.fields hord.1
        · intro hany
          obtain ⟨f, hf, hw⟩ := List.any_eq_true.mp hany
          rw [List.mem_filter] at hf
          exact hall f hf.1 (by simpa using hw) (by simpa using hf.2)
      rw [hsz, Option.getD_some] at hv
      split at hv
      · cases hv
      · cases hm : sumSizeFns d p (total d.fields) (d.fields.filterMap (·.sizeFn)) with
        | error e => rw [hm] at hv; cases hv
        | ok m =>
          rw [hm, Except.ok_bind] at hv
          obtain ⟨v, h1, h2⟩ := sumSizeFns_inv hm
          refine ⟨v, h1, ?_⟩
          split at hv
          · omega
          · cases hv

/-- Where the fields are. -/
theorem position_of {d : PackDesc} (hord : Ordered d) {p : Bytes} {v : SizeFn → Nat}
    (hv : ∀ s ∈ d.fields.filterMap (·.sizeFn), s.run d p = .ok (v s)) (i : Nat)
    (hi : i ≤ d.fields.length)
    (hfin : ∀ (j : Nat) (f : FieldDesc), d.fields[j]? = some f → j < i → width f.ty = 0 →
      f.sizeFn ≠ none) :
    Position d p i (start d.fields i + (((d.fields.take i).filterMap (·.sizeFn)).map v).sum) := by
  induction i with
  | zero => rw [start_zero]; exact .zero
  | succ i ih =>
    have hlt : i < d.fields.length := hi
    have hf := List.getElem?_eq_getElem hlt
    have hmem := List.mem_of_getElem? hf
    have ih := ih (by omega) fun j f h1 h2 => hfin j f h1 (by omega)
    rw [start_add_width hf, List.take_add_one, hf, List.filterMap_append, List.map_append,
      List.sum_append]
    by_cases hw : width d.fields[i].ty = 0
    · obtain ⟨s, hs⟩ := Option.ne_none_iff_exists'.mp (hfin i _ hf (by omega) hw)
      have := Position.succ ih hf (.announced hw hs (hv s (List.mem_filterMap.mpr ⟨_, hmem, hs⟩)))
      simpa [hw, hs, Nat.add_assoc] using this
    · have := Position.succ ih hf (.fixed hw)
      have hn := hord.1 _ hmem hw
      have e : start d.fields i + (((d.fields.take i).filterMap (·.sizeFn)).map v).sum +
          width d.fields[i].ty = start d.fields i + width d.fields[i].ty +
            ((((d.fields.take i).filterMap (·.sizeFn)).map v).sum +
              ((([d.fields[i]] : List FieldDesc).filterMap (·.sizeFn)).map v).sum) := by
        simp [hn]; omega
      rw [e] at this
      exact this

theorem sum_sizeFns_take {fs : List FieldDesc} {i : Nat} {f : FieldDesc} (hf : fs[i]? = some f)
    (v : SizeFn → Nat) :
    (((fs.take i).filterMap (·.sizeFn)).map v).sum + (f.sizeFn.toList.map v).sum ≤
      ((fs.filterMap (·.sizeFn)).map v).sum := by
  induction fs generalizing i with
  | nil => simp at hf
  | cons g fs ih =>
    cases i with
    | zero =>
      cases hf
      rw [List.filterMap_cons]
      cases f.sizeFn <;> simp
    | succ i =>
      have := ih (i := i) hf
      rw [List.take_succ_cons, List.filterMap_cons, List.filterMap_cons]
      cases g.sizeFn with
      | none => exact this
      | some s => simp only [List.map_cons, List.sum_cons]; omega

end Ublox
