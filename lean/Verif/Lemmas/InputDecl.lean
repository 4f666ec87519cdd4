import Verif.Lemmas.Input

/-! Lemmas about the reading of whole declarations. -/

namespace Ublox.Syn
open Spec

theorem ok_bind {α β : Type} {x : Except String α} {f : α → Except String β} {b : β} :
    (x >>= f) = .ok b ↔ ∃ a, x = .ok a ∧ f a = .ok b := by
  cases x <;> simp [bind, Except.bind]

theorem checkComment_iff {attrs : List Attr} {u : Unit} : checkComment attrs = .ok u ↔ DocsOk attrs := by
  unfold checkComment DocsOk
  induction attrs with
  | nil => exact ⟨fun _ => by simp, fun _ => rfl⟩
  | cons a as ih =>
    rw [show ∀ f : Attr → Except String Unit, (a :: as).forM f = (f a >>= fun _ => as.forM f) from fun _ => rfl]
    simp only [ok_bind, List.mem_cons, forall_eq_or_imp, ih]
    constructor
    · rintro ⟨_, h1, h2⟩
      refine ⟨fun hd => ?_, h2⟩
      rw [if_pos hd] at h1
      split at h1
      · rename_i c hb; exact ⟨c, hb⟩
      · cases h1
      · cases h1
    · rintro ⟨h1, h2⟩
      refine ⟨(), ?_, h2⟩
      split
      · rename_i hd
        obtain ⟨c, hb⟩ := h1 hd
        rw [hb]
      · rfl

theorem parseArgs_iff {a : Attr} {m : PackFieldMap} : a.parseArgs = .ok m ↔ AttrMeans a m := by
  unfold Attr.parseArgs AttrMeans
  cases a.body with
  | paren ts =>
    simp only [AttrBody.paren.injEq, parseFieldMap_iff]
    constructor
    · rintro ⟨as, h⟩; exact ⟨ts, as, rfl, h⟩
    · rintro ⟨_, as, rfl, h⟩; exact ⟨as, h⟩
  | empty => simp
  | eq l => simp
  | other => simp

/-- The attributes as a chain. -/
theorem fieldAttrs_iff : ∀ (attrs : List Attr) (m0 m : PackFieldMap), fieldAttrs m0 attrs = .ok m ↔
    match attrs.filter fun a => a.path ≠ .doc with
    | [] => m = m0
    | a :: as => m0.isNone = true ∧ ∃ init last, a :: as = init ++ [last] ∧ AttrMeans last m ∧
      ∀ b ∈ init, ∃ mb, AttrMeans b mb ∧ mb.mapType = none ∧ mb.scale = none ∧ mb.alias = none := by
  intro attrs
  induction attrs with
  | nil => intro m0 m; simp [fieldAttrs, eq_comm]
  | cons a as ih =>
    intro m0 m
    by_cases hd : a.path = .doc
    · simp only [fieldAttrs, hd, ne_eq, not_true_eq_false, if_false, ih,
        List.filter_cons, decide_not]
      simp
    · have hf : ((a :: as).filter fun a => a.path ≠ .doc) = a :: as.filter fun a => a.path ≠ .doc := by
        simp [hd]
      rw [hf]
      have hstep : fieldAttrs m0 (a :: as) = .ok m ↔
          m0.isNone = true ∧ ∃ m1, AttrMeans a m1 ∧ fieldAttrs m1 as = .ok m := by
        simp only [fieldAttrs, ne_eq, hd, not_false_eq_true, if_true]
        cases h0 : m0.isNone with
        | false => simp [bind, Except.bind, throw, throwThe, MonadExceptOf.throw]
        | true => simp [ok_bind, parseArgs_iff]
      rw [hstep]
      simp only [ih]
      refine and_congr_right fun _ => ?_
      cases hr : as.filter fun a => a.path ≠ .doc with
      | nil =>
        simp only
        constructor
        · rintro ⟨m1, h1, rfl⟩
          exact ⟨[], a, rfl, h1, by simp⟩
        · rintro ⟨init, last, h1, h2, h3⟩
          have : init = [] ∧ last = a := by
            cases init with
            | nil => simp at h1; exact ⟨rfl, h1.symm⟩
            | cons x xs => simp at h1
          obtain ⟨rfl, rfl⟩ := this
          exact ⟨m, h2, rfl⟩
      | cons b bs =>
        simp only
        constructor
        · rintro ⟨m1, h1, hn, init, last, h2, h3, h4⟩
          refine ⟨a :: init, last, by rw [h2]; rfl, h3, ?_⟩
          intro x hx
          rcases List.mem_cons.mp hx with rfl | hx
          · simp only [PackFieldMap.isNone, Bool.and_eq_true, Option.isNone_iff_eq_none] at hn
            exact ⟨m1, h1, hn.1.1, hn.1.2, hn.2⟩
          · exact h4 x hx
        · rintro ⟨init, last, h1, h2, h3⟩
          cases init with
          | nil => simp at h1
          | cons x xs =>
            simp only [List.cons_append, List.cons.injEq] at h1
            obtain ⟨rfl, h1⟩ := h1
            obtain ⟨m1, h4, h5, h6, h7⟩ := h3 a (by simp)
            exact ⟨m1, h4, by simp [PackFieldMap.isNone, h5, h6, h7], xs, last, h1, h2,
              fun y hy => h3 y (List.mem_cons_of_mem _ hy)⟩

theorem fieldAttrs_empty_iff {attrs : List Attr} {m : PackFieldMap} :
    fieldAttrs {} attrs = .ok m ↔ AttrsMean attrs m := by
  rw [fieldAttrs_iff]
  unfold AttrsMean
  cases attrs.filter fun a => a.path ≠ .doc <;> simp [PackFieldMap.isNone]

theorem fieldSizeBytes_iff {t : Ty} {o : Option Nat} : fieldSizeBytes t = .ok o ↔ SizeMeans t o := by
  constructor
  · intro h
    unfold fieldSizeBytes at h
    split at h <;> first
      | (cases h; exact .scalar (by decide))
      | skip
    · rename_i elem len
      split at h
      · cases h
      · rename_i he
        have he : elem = .path [.u8] := Classical.not_not.mp he
        subst he
        split at h
        · rename_i n
          split at h
          · rename_i hn
            obtain ⟨k, rfl⟩ := Int.eq_ofNat_of_zero_le hn
            cases h
            by_cases hk : k = 0
            · subst hk; exact .empty
            · rw [if_neg (by omega)]
              exact .bytes (by omega)
          · cases h
        · cases h
    · cases h; exact .ref
    · cases h
  · intro h
    cases h with
    | scalar h => simp [scalarSizes] at h; rcases h with h | h | h | h | h | h | h | h <;> obtain ⟨rfl, rfl⟩ := h <;> rfl
    | @bytes n h => simp [fieldSizeBytes]; omega
    | empty => rfl
    | ref => rfl

theorem new_eq_mapCode (m : PackFieldMap) (raw : Ty) : PackFieldMapDesc.new m raw = mapCode m raw := by
  unfold PackFieldMapDesc.new mapCode
  cases m.mapType with
  | none => rfl
  | some t =>
    simp only [Option.map_some]
    congr 2
    congr 1
    · cases t.fromFn <;> cases m.convertMayFail <;> rfl
    · cases t.isValidFn <;> rfl
    · cases t.intoFn with
      | some p => rfl
      | none => simp only [Option.map_none, Option.getD_none]; cases m.scale <;> rfl

theorem parseField_iff {f : Field} {p : PackField} : parseField f = .ok p ↔ FieldMeans f p := by
  unfold parseField
  simp only [ok_bind, fieldSizeBytes_iff, checkComment_iff, fieldAttrs_empty_iff, new_eq_mapCode]
  constructor
  · rintro ⟨sz, h1, _, h2, m, h3, h5⟩
    cases hm : m.mapType with
    | none =>
      rw [hm] at h5
      cases h5
      exact ⟨rfl, rfl, h1, h2, m, h3, by simp [hm], rfl⟩
    | some t =>
      rw [hm] at h5
      simp only at h5
      split at h5
      · cases h5
      · rename_i hne
        cases h5
        refine ⟨rfl, rfl, h1, h2, m, h3, ?_, rfl⟩
        intro t' ht'
        rw [hm] at ht'
        cases ht'
        exact hne
  · rintro ⟨h1, h2, h3, h4, m, h5, h6, h7⟩
    refine ⟨p.sizeBytes, h3, (), h4, m, h5, ?_⟩
    obtain ⟨n, t, mp, sz⟩ := p
    simp only at h1 h2 h7
    subst h1 h2 h7
    cases hm : m.mapType with
    | none => rfl
    | some t => simp [h6 t hm, pure, Except.pure]

theorem mapM_iff {α β : Type} {f : α → Except String β} {R : α → β → Prop}
    (h : ∀ a b, f a = .ok b ↔ R a b) (as : List α) (bs : List β) :
    as.mapM f = .ok bs ↔ List.Forall₂ R as bs := by
  induction as generalizing bs with
  | nil => simp [pure, Except.pure, eq_comm]
  | cons a as ih =>
    rw [List.mapM_cons]
    simp only [ok_bind, pure, Except.pure, Except.ok.injEq, h, ih]
    constructor
    · rintro ⟨b, h1, bs', h2, rfl⟩; exact .cons h1 h2
    · rintro (_ | ⟨h1, h2⟩); exact ⟨_, h1, _, h2, rfl⟩

theorem fieldsSize_iff {fs : List PackField} {o : Option Nat} : fieldsSize fs = o ↔
    match o with
    | some n => (∀ f ∈ fs, f.sizeBytes.isSome) ∧ n = (fs.filterMap (·.sizeBytes)).sum
    | none => ∃ f ∈ fs, f.sizeBytes = none := by
  induction fs generalizing o with
  | nil =>
    cases o with
    | none => simp [fieldsSize]
    | some n => simp [fieldsSize]; omega
  | cons f fs ih =>
    cases hs : f.sizeBytes with
    | none => cases o <;> simp [fieldsSize, hs]
    | some k =>
      cases hf : fieldsSize fs with
      | none =>
        have h1 := ih.mp hf
        cases o with
        | none => simp only [fieldsSize, hs, hf]; simpa [hs] using h1
        | some n =>
          simp only [fieldsSize, hs, hf]
          simp only [bind, Option.bind, reduceCtorEq, false_iff, List.mem_cons, forall_eq_or_imp, not_and]
          rintro ⟨_, h2⟩
          obtain ⟨g, hg, hg'⟩ := h1
          have := h2 g hg
          rw [hg'] at this
          cases this
      | some j =>
        have h1 := ih.mp hf
        simp only at h1
        cases o with
        | none =>
          simp only [fieldsSize, hs, hf]
          simp only [bind, Option.bind, pure, reduceCtorEq, false_iff, List.mem_cons, exists_eq_or_imp, hs, false_or]
          rintro ⟨g, hg, hg'⟩
          have := h1.1 g hg
          rw [hg'] at this
          cases this
        | some n =>
          simp only [fieldsSize, hs, hf, bind, Option.bind, pure, Option.some.injEq, List.mem_cons,
            forall_eq_or_imp, Option.isSome_some, true_and, List.filterMap_cons_some hs, List.sum_cons]
          constructor
          · intro h; exact ⟨h1.1, by rw [← h1.2, h]⟩
          · rintro ⟨_, h⟩; rw [h, ← h1.2]

theorem reverse_drop_one {α : Type} (l : List α) : l.reverse.drop 1 = l.dropLast.reverse := by
  rw [List.drop_reverse, List.dropLast_eq_take]

theorem sized_iff {fs : List PackField} :
    (fs.reverse.drop 1).find? (fun f => f.sizeBytes.isNone && f.sizeFn.isNone) = none ↔
      ∀ f ∈ fs.dropLast, f.sizeBytes = none → ∃ t, f.map.mapType = some t ∧ t.sizeFn.isSome := by
  rw [reverse_drop_one, List.find?_eq_none]
  simp only [List.mem_reverse, Bool.and_eq_true, Option.isNone_iff_eq_none, not_and]
  refine forall_congr' fun f => imp_congr_right fun _ => imp_congr_right fun _ => ?_
  unfold PackField.sizeFn
  cases f.map.mapType with
  | none => simp
  | some t => simp [Option.isSome_iff_ne_none]

theorem parsePacketDescription_iff {s : StructDecl} {p : PackDesc} :
    parsePacketDescription s = .ok p ↔ DeclMeans s p := by
  unfold parsePacketDescription
  simp only [ok_bind, parseUbxAttr_iff, checkComment_iff]
  have hfs : ∀ fs, parseFields s.fields = .ok fs ↔ ∃ l, s.fields = some l ∧ List.Forall₂ FieldMeans l fs := by
    intro fs
    cases s.fields with
    | none => simp [parseFields]
    | some l => simp [parseFields, mapM_iff (fun f p => parseField_iff (f := f) (p := p))]
  simp only [hfs]
  have hlen : ∀ (pl : PayloadLen) (fs : List PackField), payloadFixed pl = fieldsSize fs ↔
      match pl with
      | .fixed n => (∀ f ∈ fs, f.sizeBytes.isSome) ∧ n = (fs.filterMap (·.sizeBytes)).sum
      | .max _ => ∃ f ∈ fs, f.sizeBytes = none := by
    intro pl fs
    rw [eq_comm, fieldsSize_iff]
    cases pl <;> rfl
  constructor
  · rintro ⟨h, h1, _, h2, fs, h3, h5⟩
    split at h5
    · cases h5
    · rename_i hs
      split at h5
      · rename_i hl
        cases h5
        exact ⟨rfl, h1, h2, h3, sized_iff.mp hs, (hlen _ _).mp hl⟩
      · cases h5
  · rintro ⟨h1, h2, h3, h4, h5, h6⟩
    refine ⟨p.header, h2, (), h3, p.fields, h4, ?_⟩
    rw [sized_iff.mpr h5]
    simp only [(hlen _ _).mpr h6, if_true]
    obtain ⟨n, h, f⟩ := p
    simp only at h1
    subst h1
    rfl

end Ublox.Syn
