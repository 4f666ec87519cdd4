import Verif.Lemmas.InputTypes
import Verif.Lemmas.Derive
import Verif.Model.GenDecls
import Verif.Model.GenPackets
import Mathlib.Data.List.Nodup

/-!
# C67, C68, C69: declarations are read as they are written
-/

namespace Ublox.Props

open Spec Gen Syn

/-- **C67**: the attribute of a packet is accepted exactly if it is a list of entries `key = literal`,
separated by commas, that gives a header: class and number once each and below 256, one of the two
lengths once and below 65536, no other key; and the header that is read is this one. -/
theorem c67_header (attrs : List Attr) (h : PackHeader) :
    parseUbxAttr attrs = .ok h ↔ PacketHeader attrs h :=
  parseUbxAttr_iff

theorem valuesOf_perm {k : Word} {es es' : List (Word × Lit)} (h : es.Perm es') :
    (valuesOf k es).Perm (valuesOf k es') :=
  (h.filter _).map _

theorem perm_short {α : Type} {l l' : List α} (h : l.Perm l') (hl : l.length ≤ 1) : l = l' := by
  match l, hl with
  | [], _ => exact h.nil_eq
  | [a], _ => exact (List.perm_singleton.mp h.symm).symm

/-- **C67**: the order of the entries does not matter, if the flags are given at most once. -/
theorem c67_header_order {es es' : List (Word × Lit)} (hp : es.Perm es')
    (hf : (valuesOf .flags es).length ≤ 1) {h : PackHeader} (hh : HeaderMeans es h) : HeaderMeans es' h := by
  have hv : ∀ k, (valuesOf k es).length ≤ 1 → valuesOf k es' = valuesOf k es :=
    fun k hk => (perm_short (valuesOf_perm hp) hk).symm
  obtain ⟨h1, h2, h3, ⟨n, hn, h4⟩, h5⟩ := hh
  have hlen : (valuesOf .fixedPayloadLen es).length ≤ 1 ∧ (valuesOf .maxPayloadLen es).length ≤ 1 := by
    rcases h4 with ⟨h, h', _⟩ | ⟨h, h', _⟩ <;> simp [h, h']
  refine ⟨fun e he => h1 e (hp.mem_iff.mpr he), ?_, ?_, ⟨n, hn, ?_⟩, ?_⟩
  · rwa [hv _ (by simp [h2.1])]
  · rwa [hv _ (by simp [h3.1])]
  · rwa [hv _ hlen.1, hv _ hlen.2]
  · rwa [hv _ hf]

/-- **C67**: the attribute of a field is accepted exactly if it is a sequence of arguments with or without
commas between them; what is read is what they mean. -/
theorem c67_arguments (ts : List Tok) (m : PackFieldMap) :
    parseFieldMap ts = .ok m ↔ ∃ as, ArgsWritten as ts ∧ m = argsMean as :=
  parseFieldMap_iff

/-- **C67**: a field is accepted exactly if its type has a size in the sense of `SizeMeans`, its
attributes can be read, and it is not mapped to its own type. -/
theorem c67_field (f : Field) (p : PackField) : parseField f = .ok p ↔ FieldMeans f p :=
  parseField_iff

/-- **C67**: a declaration is accepted exactly if it means something (`DeclMeans`), and the description
that the code is generated from is this meaning. -/
theorem c67_declaration (s : StructDecl) (p : Syn.PackDesc) :
    parsePacketDescription s = .ok p ↔ DeclMeans s p :=
  parsePacketDescription_iff

/-- **C67**: a declaration has at most one meaning. -/
theorem c67_unambiguous {s : StructDecl} {p q : Syn.PackDesc} (hp : DeclMeans s p) (hq : DeclMeans s q) :
    p = q := by
  rw [← c67_declaration] at hp hq
  exact Except.ok.inj (hp.symm.trans hq)

set_option maxRecDepth 20000 in
/-- **C67**: all packet declarations of the crate are accepted, and the code is generated from the
descriptions of `Gen.allPackets`, which the other theorems are about: class, number, length, names,
types, scales, conversion functions. -/
theorem c67_crate :
    packetDecls.map (fun s => (s.kind, parsePacketDescription s)) =
      allPackets.map fun d => (d.kind, .ok (packetCode d)) := by
  rfl

theorem convDesc_eq {f f' : FieldDesc} {c c' : Conv} {raw : Ty}
    (h : convDesc f raw c = convDesc f' raw c') : convTy c = convTy c' ∧ f.sizeFn = f'.sizeFn := by
  refine ⟨congrArg (·.ty) h, ?_⟩
  have := congrArg (·.sizeFn) h
  simp only [convDesc] at this
  revert this
  cases f.sizeFn with
  | none => cases f'.sizeFn <;> simp
  | some a =>
    cases f'.sizeFn with
    | none => simp
    | some b => cases a <;> cases b <;> simp [sizeFnName]

theorem forall₂_imp_mem {α β : Type} {r q : α → β → Prop} {l : List α} {l' : List β}
    (h : List.Forall₂ r l l') (hi : ∀ a b, a ∈ l → b ∈ l' → r a b → q a b) : List.Forall₂ q l l' := by
  induction h with
  | nil => exact .nil
  | cons h1 _ ih =>
    exact .cons (hi _ _ (by simp) (by simp) h1)
      (ih fun a b ha hb => hi a b (List.mem_cons_of_mem _ ha) (List.mem_cons_of_mem _ hb))

theorem forall₂_mem_right {α β : Type} {r : α → β → Prop} {l : List α} {l' : List β}
    (h : List.Forall₂ r l l') {b : β} (hb : b ∈ l') : ∃ a, r a b := by
  induction h with
  | nil => simp at hb
  | cons h1 _ ih =>
    rcases List.mem_cons.mp hb with he | hm
    · rw [he]; exact ⟨_, h1⟩
    · exact ih hm

/-- **C67**: the code determines the description: two descriptions with the same code have the same
header, and field by field the same name, raw type, scale, alias, attributes and mapped type.  (An array
without elements and a field without size are the same text, so the first one is excluded.) -/
theorem c67_code_determines {d d' : Ublox.PackDesc} (h : packetCode d = packetCode d')
    (hz : ∀ f ∈ d.fields ++ d'.fields, f.ty ≠ .bytes 0) :
    d.name = d'.name ∧ d.cls = d'.cls ∧ d.id = d'.id ∧ d.payloadLen = d'.payloadLen ∧
      d.defaultForBuilder = d'.defaultForBuilder ∧
      List.Forall₂ (fun f f' : FieldDesc => f.name = f'.name ∧ f.ty = f'.ty ∧ f.scale = f'.scale ∧
        f.alias = f'.alias ∧ f.mayFail = f'.mayFail ∧ f.getAsRef = f'.getAsRef ∧
        f.map.map convTy = f'.map.map convTy ∧ (f.map ≠ none → f.sizeFn = f'.sizeFn))
        d.fields d'.fields := by
  simp only [packetCode, Syn.PackDesc.mk.injEq, PackHeader.mk.injEq] at h
  obtain ⟨h1, ⟨h2, h3, h4, h5⟩, h6⟩ := h
  refine ⟨h1, UInt8.toNat_inj.mp h2, UInt8.toNat_inj.mp h3, h4, ?_, ?_⟩
  · revert h5
    cases d.defaultForBuilder <;> cases d'.defaultForBuilder <;> simp
  · have h7 := List.forall₂_eq_eq_eq.symm ▸ h6
    rw [List.forall₂_map_left_iff, List.forall₂_map_right_iff] at h7
    refine forall₂_imp_mem h7 fun f f' hm hm' hf => ?_
    have hz1 := hz f (List.mem_append_left _ hm)
    have hz2 := hz f' (List.mem_append_right _ hm')
    simp only [fieldCode, PackField.mk.injEq, PackFieldMapDesc.mk.injEq] at hf
    obtain ⟨g1, g2, ⟨g3, g4, g5, g6, g7⟩, g8⟩ := hf
    have hmap : f.map.isSome = f'.map.isSome := by
      revert g3
      cases f.map <;> cases f'.map <;> simp
    refine ⟨g1, ?_, g4, g5, g6, g7, ?_, ?_⟩
    · rw [hmap] at g2
      revert g2 hz1 hz2
      generalize f'.map.isSome = b
      cases f.ty <;> cases f'.ty <;> cases b <;> simp [rawTy] <;> omega
    · revert g3
      rw [g2]
      cases f.map <;> cases f'.map <;> simp
      exact fun h => (convDesc_eq h).1
    · intro hn
      revert g3 hn
      rw [g2]
      cases f.map <;> cases f'.map <;> simp
      exact fun h => (convDesc_eq h).2

theorem fieldsSize_code (fs : List FieldDesc) : Syn.fieldsSize (fs.map fieldCode) = Ublox.fieldsSize fs := by
  induction fs with
  | nil => rfl
  | cons f fs ih => simp only [List.map_cons, Syn.fieldsSize, Ublox.fieldsSize, ih]; rfl

/-- **C67**: what is accepted as text passes the checks that C55 is about. -/
theorem c67_checks {s : StructDecl} {d : Ublox.PackDesc} (h : parsePacketDescription s = .ok (packetCode d)) :
    d.parse = .ok d := by
  have hm := (c67_declaration _ _).mp h
  obtain ⟨_, ⟨ts, es, _, _, hh⟩, _, ⟨fs, _, hfs⟩, hsz, hlen⟩ := hm
  obtain ⟨n, hn, hl⟩ := hh.len
  have hpl : (packetCode d).header.payloadLen = d.payloadLen := rfl
  have hmax : d.maxPayloadLen < 65536 := by
    unfold PackDesc.maxPayloadLen
    rcases hl with ⟨_, _, h⟩ | ⟨_, _, h⟩ <;> rw [hpl] at h <;> rw [h] <;> exact hn
  unfold Ublox.PackDesc.parse
  rw [if_neg (by omega)]
  have hsame : d.fields.find? (·.mapsToSame) = none := by
    rw [List.find?_eq_none]
    intro f hf
    have hmem : fieldCode f ∈ (packetCode d).fields := List.mem_map_of_mem hf
    obtain ⟨fld, hx⟩ := forall₂_mem_right hfs hmem
    obtain ⟨_, hty, _, _, m, _, hne, hmc⟩ := hx
    intro hs
    have hcode : ∃ w, f.map.map convTy = some (.path [w]) ∧ (fieldCode f).ty = .path [w] := by
      unfold FieldDesc.mapsToSame at hs
      split at hs
      · rename_i h1 h2; exact ⟨.f32, by rw [h1]; rfl, by simp [fieldCode, h2, rawTy]⟩
      · rename_i h1 h2; exact ⟨.f64, by rw [h1]; rfl, by simp [fieldCode, h2, rawTy]⟩
      · cases hs
    obtain ⟨w, h1, h2⟩ := hcode
    have h3 : (fieldCode f).map.mapType.map (·.ty) = f.map.map convTy := by
      simp only [fieldCode, Option.map_map]; rfl
    rw [hmc, h1] at h3
    simp only [mapCode, Option.map_map] at h3
    cases hmt : m.mapType with
    | none => rw [hmt] at h3; cases h3
    | some t =>
      rw [hmt] at h3
      simp at h3
      exact hne t hmt (by rw [h3, ← hty, h2])
  have hfin : (d.fields.reverse.drop 1).find? (fun f => f.ty.size.isNone && f.sizeFn.isNone) = none := by
    rw [reverse_drop_one, List.find?_eq_none]
    intro f hf
    rw [List.mem_reverse] at hf
    have hmem : fieldCode f ∈ (packetCode d).fields.dropLast := by
      simp only [packetCode, ← List.map_dropLast]
      exact List.mem_map_of_mem hf
    simp only [Bool.and_eq_true, Option.isNone_iff_eq_none, not_and]
    intro h1 h2
    obtain ⟨t, h3, h4⟩ := hsz _ hmem h1
    simp only [fieldCode] at h3
    cases hfm : f.map with
    | none => rw [hfm] at h3; cases h3
    | some c =>
      rw [hfm] at h3
      simp only [Option.map_some, Option.some.injEq] at h3
      rw [← h3] at h4
      simp [convDesc, h2] at h4
  have heq : d.fixedPayloadLen = d.packetPayloadSize := by
    have h1 : payloadFixed (packetCode d).header.payloadLen = Syn.fieldsSize (packetCode d).fields := by
      rw [eq_comm, fieldsSize_iff]
      rw [hpl] at hlen ⊢
      revert hlen
      cases d.payloadLen <;> exact id
    rw [hpl, show (packetCode d).fields = d.fields.map fieldCode from rfl, fieldsSize_code] at h1
    unfold PackDesc.fixedPayloadLen PackDesc.packetPayloadSize
    rw [← h1]
    cases d.payloadLen <;> rfl
  rw [hsame, hfin, if_pos heq]

/-- The entries of a header, in another order than usual. -/
example : HeaderMeans
    [(.id, .int 0x13), (.maxPayloadLen, .int 1240), (.flags, .str [.word .defaultForBuilder]), (.class_, .int 2)]
    ⟨2, 0x13, .max 1240, [.defaultForBuilder]⟩ :=
  ⟨by decide, by decide, by decide, ⟨1240, by decide⟩,
    .inr ⟨0, [.word .defaultForBuilder], 1, by decide, .one, rfl⟩⟩

/-- Arguments of a field, with and without commas. -/
example : ArgsWritten [.mapType (.path [.f64]), .scale (1 / 100), .mayFail]
    [.word .mapType, .punct '=', .word .f64, .punct ',', .word .scale, .punct '=', .lit (.float (1 / 100)),
      .word .mayFail, .punct ','] :=
  .comma (.mapType (.path [.f64])) (by simp [ArgOk, TyOk]) <|
    .cons (.scale (1 / 100)) trivial (.comma .mayFail trivial .nil)

/-- A declaration of the crate has a meaning. -/
example : DeclMeans navPosLlh_decl (packetCode navPosLlh_) :=
  (c67_declaration _ _).mp (by rfl)

/-! ## C68 -/

/-- The kind of an argument. -/
def argKind : Arg → Nat
  | .mapType _ => 0
  | .scale _ => 1
  | .alias _ => 2
  | .mayFail => 3
  | .from_ _ => 4
  | .isValid _ => 5
  | .sizeFn _ => 6
  | .getAsRef => 7
  | .into _ => 8

/-- An argument that needs a `map_type`. -/
def needsType : Arg → Bool
  | .from_ _ => true
  | .isValid _ => true
  | .sizeFn _ => true
  | .into _ => true
  | _ => false

/-- An argument is in effect. -/
def Effective (m : PackFieldMap) : Arg → Prop
  | .mapType t => ∃ x, m.mapType = some x ∧ x.ty = t
  | .scale q => m.scale = some q
  | .alias w => m.alias = some w.text
  | .mayFail => m.convertMayFail = true
  | .from_ p => ∃ x, m.mapType = some x ∧ x.fromFn = some p
  | .isValid p => ∃ x, m.mapType = some x ∧ x.isValidFn = some p
  | .sizeFn p => ∃ x, m.mapType = some x ∧ x.sizeFn = some p
  | .getAsRef => m.getAsRef = true
  | .into p => ∃ x, m.mapType = some x ∧ x.intoFn = some p

/-- No kind of argument twice, and functions only with a `map_type`. -/
def WellGiven (as : List Arg) : Prop :=
  (as.map argKind).Nodup ∧ ∀ a ∈ as, needsType a = true → 0 ∈ as.map argKind

theorem lastOf_unique {α : Type} {kind : Arg → Option α} {k : Nat} {as : List Arg} {a : Arg} {x : α}
    (hk : ∀ b y, kind b = some y → argKind b = k) (hn : (as.map argKind).Nodup) (ha : a ∈ as)
    (hx : kind a = some x) : lastOf kind as = some x := by
  have hall : ∀ y ∈ as.filterMap kind, y = x := by
    intro y hy
    obtain ⟨b, hb, hby⟩ := List.mem_filterMap.mp hy
    have : b = a := List.inj_on_of_nodup_map hn hb ha (by rw [hk b y hby, hk a x hx])
    subst this
    rw [hx] at hby
    exact (Option.some.inj hby).symm
  have hmem : x ∈ as.filterMap kind := List.mem_filterMap.mpr ⟨a, ha, hx⟩
  unfold lastOf
  cases hg : (as.filterMap kind).getLast? with
  | none => rw [List.getLast?_eq_none_iff.mp hg] at hmem; simp at hmem
  | some y => rw [hall y (List.mem_of_getLast? hg)]

/-- **C68**, partial: arguments that are given once each, functions together with a type, are all in
effect.  Missing: the macros also accept other arguments, and ignore some of them
(`c68_argument_ignored`). -/
theorem c68_effective_partial {as : List Arg} (h : WellGiven as) : ∀ a ∈ as, Effective (argsMean as) a := by
  intro a ha
  have hty : needsType a = true → ∃ t, .mapType t ∈ as := by
    intro hn
    obtain ⟨b, hb, hk⟩ := List.mem_map.mp (h.2 a ha hn)
    cases b <;> simp [argKind] at hk
    exact ⟨_, hb⟩
  have hmt : ∀ t, .mapType t ∈ as → ∃ x, (argsMean as).mapType = some x ∧ x.ty = t ∧
      (∀ p, .from_ p ∈ as → x.fromFn = some p) ∧ (∀ p, .isValid p ∈ as → x.isValidFn = some p) ∧
      (∀ p, .sizeFn p ∈ as → x.sizeFn = some p) ∧ (∀ p, .into p ∈ as → x.intoFn = some p) := by
    intro t ht
    refine ⟨_, congrArg (Option.map _) (lastOf_unique (k := 0)
      (kind := fun | .mapType t => some t | _ => none)
      (fun b y hb => by cases b <;> first | rfl | cases hb) h.1 ht rfl), rfl, ?_, ?_, ?_, ?_⟩
    · exact fun p hp => lastOf_unique (k := 4) (kind := fun | .from_ p => some p | _ => none)
        (fun b y hb => by cases b <;> first | rfl | cases hb) h.1 hp rfl
    · exact fun p hp => lastOf_unique (k := 5) (kind := fun | .isValid p => some p | _ => none)
        (fun b y hb => by cases b <;> first | rfl | cases hb) h.1 hp rfl
    · exact fun p hp => lastOf_unique (k := 6) (kind := fun | .sizeFn p => some p | _ => none)
        (fun b y hb => by cases b <;> first | rfl | cases hb) h.1 hp rfl
    · exact fun p hp => lastOf_unique (k := 8) (kind := fun | .into p => some p | _ => none)
        (fun b y hb => by cases b <;> first | rfl | cases hb) h.1 hp rfl
  cases a with
  | mapType t => exact (hmt t ha).imp fun x hx => ⟨hx.1, hx.2.1⟩
  | scale q =>
    exact lastOf_unique (k := 1) (kind := fun | .scale q => some q | _ => none)
      (fun b y hb => by cases b <;> first | rfl | cases hb) h.1 ha rfl
  | «alias» w =>
    exact lastOf_unique (k := 2) (kind := fun | .alias w => some w.text | _ => none)
      (fun b y hb => by cases b <;> first | rfl | cases hb) h.1 ha rfl
  | mayFail => simpa [Effective, argsMean] using ha
  | getAsRef => simpa [Effective, argsMean] using ha
  | from_ p =>
    obtain ⟨t, ht⟩ := hty rfl
    exact (hmt t ht).imp fun x hx => ⟨hx.1, hx.2.2.1 p ha⟩
  | isValid p =>
    obtain ⟨t, ht⟩ := hty rfl
    exact (hmt t ht).imp fun x hx => ⟨hx.1, hx.2.2.2.1 p ha⟩
  | sizeFn p =>
    obtain ⟨t, ht⟩ := hty rfl
    exact (hmt t ht).imp fun x hx => ⟨hx.1, hx.2.2.2.2.1 p ha⟩
  | into p =>
    obtain ⟨t, ht⟩ := hty rfl
    exact (hmt t ht).imp fun x hx => ⟨hx.1, hx.2.2.2.2.2 p ha⟩

/-- Arguments of the same kind say the same, and functions come with a `map_type`. -/
def Agree (as : List Arg) : Prop :=
  (∀ a ∈ as, ∀ b ∈ as, argKind a = argKind b →
    a = b ∨ ∃ v w : Word, a = .alias v ∧ b = .alias w ∧ v.text = w.text) ∧
  ∀ a ∈ as, needsType a = true → ∃ t, .mapType t ∈ as

theorem lastOf_agree {α : Type} {kind : Arg → Option α} {as : List Arg} {a : Arg} {x : α}
    (ha : a ∈ as) (hx : kind a = some x) (hall : ∀ b ∈ as, ∀ y, kind b = some y → y = x) :
    lastOf kind as = some x := by
  have hmem : x ∈ as.filterMap kind := List.mem_filterMap.mpr ⟨a, ha, hx⟩
  unfold lastOf
  cases hg : (as.filterMap kind).getLast? with
  | none => rw [List.getLast?_eq_none_iff.mp hg] at hmem; simp at hmem
  | some y =>
    obtain ⟨b, hb, hby⟩ := List.mem_filterMap.mp (List.mem_of_getLast? hg)
    rw [hall b hb y hby]

/-- **C68** The condition can be made exact: all arguments are in effect if and only if those of the
same kind agree and functions come with a type.  In all other cases something is ignored. -/
theorem c68_effective_iff (as : List Arg) :
    (∀ a ∈ as, Effective (argsMean as) a) ↔ Agree as := by
  constructor
  · intro h
    refine ⟨fun a ha b hb hk => ?_, fun a ha hn => ?_⟩
    · have ea := h a ha
      have eb := h b hb
      revert ea eb
      generalize argsMean as = m
      cases a <;> cases b <;> (first | (exfalso; revert hk; simp [argKind]; done) | skip) <;> intro ea eb <;>
        simp only [Effective] at ea eb
      case mapType.mapType =>
        obtain ⟨x, h1, rfl⟩ := ea
        obtain ⟨y, h2, rfl⟩ := eb
        rw [h1] at h2
        exact .inl (by rw [Option.some.inj h2])
      case scale.scale =>
        rw [ea] at eb
        exact .inl (by rw [Option.some.inj eb])
      case alias.alias =>
        rw [ea] at eb
        exact .inr ⟨_, _, rfl, rfl, Option.some.inj eb⟩
      case mayFail.mayFail => exact .inl rfl
      case getAsRef.getAsRef => exact .inl rfl
      all_goals
        obtain ⟨x, h1, h3⟩ := ea
        obtain ⟨y, h2, h4⟩ := eb
        rw [h1] at h2
        obtain rfl := Option.some.inj h2
        rw [h3] at h4
        exact .inl (by rw [Option.some.inj h4])
    · have ea := h a ha
      have hm : ∃ x, (argsMean as).mapType = some x := by
        cases a <;> simp only [needsType, reduceCtorEq] at hn <;>
          (obtain ⟨x, hx, -⟩ := ea; exact ⟨x, hx⟩)
      obtain ⟨x, hx⟩ := hm
      simp only [argsMean, Option.map_eq_some_iff] at hx
      obtain ⟨t, ht, -⟩ := hx
      obtain ⟨b, hb, hbt⟩ := List.mem_filterMap.mp (List.mem_of_getLast? ht)
      cases b <;> simp at hbt
      exact ⟨_, hb⟩
  · rintro ⟨h1, h2⟩ a ha
    have same : ∀ {α : Type} {kind : Arg → Option α} {x : α} {a : Arg}, a ∈ as → kind a = some x →
        (∀ b y, kind b = some y → argKind b = argKind a) →
        (∀ v w : Word, v.text = w.text → kind (.alias v) = kind (.alias w)) →
        lastOf kind as = some x := by
      intro α kind x a ha hx hk hal
      refine lastOf_agree ha hx fun b hb y hy => ?_
      rcases h1 b hb a ha (hk b y hy) with rfl | ⟨v, w, rfl, rfl, ht⟩
      · rw [hx] at hy; exact (Option.some.inj hy).symm
      · rw [hal v w ht, hx] at hy; exact (Option.some.inj hy).symm
    have hmt : ∀ t, .mapType t ∈ as → ∃ x, (argsMean as).mapType = some x ∧ x.ty = t ∧
        (∀ p, .from_ p ∈ as → x.fromFn = some p) ∧ (∀ p, .isValid p ∈ as → x.isValidFn = some p) ∧
        (∀ p, .sizeFn p ∈ as → x.sizeFn = some p) ∧ (∀ p, .into p ∈ as → x.intoFn = some p) := by
      intro t ht
      refine ⟨_, congrArg (Option.map _) (same (kind := fun | .mapType t => some t | _ => none)
        ht rfl (fun b y hb => by cases b <;> first | rfl | cases hb) (fun _ _ _ => rfl)),
        rfl, ?_, ?_, ?_, ?_⟩
      · exact fun p hp => same (kind := fun | .from_ p => some p | _ => none) hp rfl
          (fun b y hb => by cases b <;> first | rfl | cases hb) (fun _ _ _ => rfl)
      · exact fun p hp => same (kind := fun | .isValid p => some p | _ => none) hp rfl
          (fun b y hb => by cases b <;> first | rfl | cases hb) (fun _ _ _ => rfl)
      · exact fun p hp => same (kind := fun | .sizeFn p => some p | _ => none) hp rfl
          (fun b y hb => by cases b <;> first | rfl | cases hb) (fun _ _ _ => rfl)
      · exact fun p hp => same (kind := fun | .into p => some p | _ => none) hp rfl
          (fun b y hb => by cases b <;> first | rfl | cases hb) (fun _ _ _ => rfl)
    cases a with
    | mapType t => exact (hmt t ha).imp fun x hx => ⟨hx.1, hx.2.1⟩
    | scale q =>
      exact same (kind := fun | .scale q => some q | _ => none) ha rfl
        (fun b y hb => by cases b <;> first | rfl | cases hb) (fun _ _ _ => rfl)
    | «alias» w =>
      exact same (kind := fun | .alias w => some w.text | _ => none) ha rfl
        (fun b y hb => by cases b <;> first | rfl | cases hb)
        (fun v w hvw => congrArg some hvw)
    | mayFail => simpa [Effective, argsMean] using ha
    | getAsRef => simpa [Effective, argsMean] using ha
    | from_ p =>
      obtain ⟨t, ht⟩ := h2 _ ha rfl
      exact (hmt t ht).imp fun x hx => ⟨hx.1, hx.2.2.1 p ha⟩
    | isValid p =>
      obtain ⟨t, ht⟩ := h2 _ ha rfl
      exact (hmt t ht).imp fun x hx => ⟨hx.1, hx.2.2.2.1 p ha⟩
    | sizeFn p =>
      obtain ⟨t, ht⟩ := h2 _ ha rfl
      exact (hmt t ht).imp fun x hx => ⟨hx.1, hx.2.2.2.2.1 p ha⟩
    | into p =>
      obtain ⟨t, ht⟩ := h2 _ ha rfl
      exact (hmt t ht).imp fun x hx => ⟨hx.1, hx.2.2.2.2.2 p ha⟩

/-- Both sides occur. -/
example : Agree [.mapType (.path [.f64]), .scale (1 / 10), .scale (1 / 10)] ∧
    ¬ Agree [.scale (1 / 10), .scale (1 / 100)] := by
  refine ⟨⟨?_, by simp [needsType]⟩, fun h => ?_⟩
  · intro a ha b hb hk
    simp only [List.mem_cons, List.not_mem_nil, or_false] at ha hb
    rcases ha with rfl | rfl | rfl <;> rcases hb with rfl | rfl | rfl <;> simp_all [argKind]
  · have := h.1 (.scale (1 / 10)) (by simp) (.scale (1 / 100)) (by simp) rfl
    revert this
    simp
    decide +kernel

/-- **C68**, partial: in an accepted attribute of a packet no key is given twice, except the flags. -/
theorem c68_header_partial {attrs : List Attr} {h : PackHeader} (hp : parseUbxAttr attrs = .ok h) :
    ∃ ts es, FirstParen .ubx attrs ts ∧ Listed (.punct ',') entryToks es ts ∧
      ∀ k, k ≠ .flags → (valuesOf k es).length ≤ 1 := by
  obtain ⟨ts, es, h1, h2, h3⟩ := (c67_header _ _).mp hp
  refine ⟨ts, es, h1, h2, fun k hk => ?_⟩
  obtain ⟨h4, h5, h6, ⟨n, _, h7⟩, _⟩ := h3
  by_cases hm : valuesOf k es = []
  · simp [hm]
  · have : ∃ e ∈ es, e.1 = k := by
      cases hv : es.filter fun e => e.1 = k with
      | nil => exact absurd (by simp [valuesOf, hv]) hm
      | cons e _ =>
        have he : e ∈ es.filter fun e => e.1 = k := by rw [hv]; simp
        exact ⟨e, (List.mem_filter.mp he).1, by simpa using (List.mem_filter.mp he).2⟩
    obtain ⟨e, he, rfl⟩ := this
    rcases h4 e he with h | h | h | h | h
    · rw [h, h5.1]; simp
    · rw [h, h6.1]; simp
    · rcases h7 with ⟨h8, h9, _⟩ | ⟨h8, h9, _⟩ <;> rw [h, h8] <;> simp
    · rcases h7 with ⟨h8, h9, _⟩ | ⟨h8, h9, _⟩ <;> rw [h, h9] <;> simp
    · exact absurd h hk

/-- Reads arguments. -/
def readArgs : Nat → List Tok → Option (List Arg)
  | _, [] => some []
  | 0, _ :: _ => none
  | fuel + 1, ts@(_ :: _) =>
    match readArg ts with
    | none => none
    | some (a, rest) => (readArgs fuel (skipComma rest)).map (a :: ·)

theorem readArgs_sound : ∀ (fuel : Nat) (ts : List Tok) (as : List Arg), readArgs fuel ts = some as →
    ArgsWritten as ts := by
  intro fuel
  induction fuel with
  | zero =>
    intro ts as h
    cases ts with
    | nil => cases h; exact .nil
    | cons t ts => cases h
  | succ fuel ih =>
    intro ts as h
    cases ts with
    | nil => cases h; exact .nil
    | cons t ts =>
      simp only [readArgs] at h
      cases hr : readArg (t :: ts) with
      | none => rw [hr] at h; cases h
      | some x =>
        obtain ⟨a, rest⟩ := x
        rw [hr] at h
        obtain ⟨hok, hts⟩ := readArg_sound hr
        simp only [Option.map_eq_some_iff] at h
        obtain ⟨as', h1, rfl⟩ := h
        have h1 := ih _ _ h1
        rw [hts]
        rcases skipComma_cases rest with he | he
        · rw [he] at h1; exact .cons a hok h1
        · rw [he]; exact .comma a hok h1

instance (as : List Arg) : Decidable (WellGiven as) := by unfold WellGiven; infer_instance

/-- Checks the attributes of a field. -/
def fieldGiven (f : Field) : Bool :=
  match f.attrs.filter fun a => a.path ≠ .doc with
  | [] => true
  | [⟨_, .paren ts⟩] =>
    match readArgs ts.length ts with
    | some as => decide (WellGiven as)
    | none => false
  | _ => false

/-- **C68**, partial: in the crate nothing is ignored.  Every field has at most one attribute besides
its documentation, and all arguments of it are in effect. -/
theorem c68_crate_partial {s : StructDecl} (hs : s ∈ packetDecls) {fs : List Field}
    (hfs : s.fields = some fs) {f : Field} (hf : f ∈ fs) :
    (f.attrs.filter fun a => a.path ≠ .doc) = [] ∨
      ∃ a ts as m, (f.attrs.filter fun a => a.path ≠ .doc) = [a] ∧ a.body = .paren ts ∧
        ArgsWritten as ts ∧ AttrsMean f.attrs m ∧ ∀ x ∈ as, Effective m x := by
  have key : ∀ s ∈ packetDecls, ∀ f ∈ s.fields.getD [], fieldGiven f = true := by decide +kernel
  have h := key s hs f (by rw [hfs]; exact hf)
  unfold fieldGiven at h
  split at h
  · rename_i he; exact .inl he
  · rename_i w ts he
    split at h
    · rename_i as hr
      have hw := readArgs_sound _ _ _ hr
      have hmean : AttrsMean f.attrs (argsMean as) := by
        unfold AttrsMean
        rw [he]
        exact ⟨[], _, rfl, ⟨ts, as, rfl, hw, rfl⟩, by simp⟩
      exact .inr ⟨_, ts, as, _, he, rfl, hw, hmean, c68_effective_partial (of_decide_eq_true h)⟩
    · cases h
  · cases h

/-- The claim of C68 does not hold: of two scales the first is ignored, a conversion function without
a type is ignored, and so is a whole attribute before another one. -/
theorem c68_argument_ignored :
    (∃ ts as m a, ArgsWritten as ts ∧ parseFieldMap ts = .ok m ∧ a ∈ as ∧ ¬ Effective m a ∧ a = .scale (1 / 100)) ∧
    (∃ ts as m a, ArgsWritten as ts ∧ parseFieldMap ts = .ok m ∧ a ∈ as ∧ ¬ Effective m a ∧
      a = .from_ [.name "convert"]) ∧
    (∃ f p, parseField f = .ok p ∧ (∃ a ∈ f.attrs, a = ⟨.ubx, .paren [.word .mayFail]⟩) ∧
      p.map.convertMayFail = false) := by
  refine ⟨⟨[.word .scale, .punct '=', .lit (.float (1 / 100)), .word .scale, .punct '=', .lit (.float (1 / 10))],
      [.scale (1 / 100), .scale (1 / 10)], _, _,
      .cons (.scale (1 / 100)) trivial (.cons (.scale (1 / 10)) trivial .nil), rfl, by simp, ?_, rfl⟩,
    ⟨[.word .from_, .punct '=', .word (.name "convert")], [.from_ [.name "convert"]], _, _,
      .cons (.from_ [.name "convert"]) (by simp [ArgOk]) .nil, rfl, by simp, ?_, rfl⟩,
    ⟨"speed", [⟨.ubx, .paren [.word .mayFail]⟩, ⟨.ubx, .paren [.word .mapType, .punct '=', .word (.name "Speed")]⟩],
      .path [.u8]⟩, _, rfl, ⟨_, by simp, rfl⟩, rfl⟩
  · simp only [Effective, mapEnd]
    decide +kernel
  · simp [Effective, mapEnd]

/-! ## C69 -/

/-- **C69**: the attribute of an enumeration or of flags is accepted exactly if it is a list of the known
words that means something, and what is read is what it means. -/
theorem c69_attributes (attrs : List Attr) (v : ExtendVars) :
    parseUbxExtendAttrs attrs = .ok v ↔ ExtendAttrs attrs v :=
  parseUbxExtendAttrs_iff

/-- **C69**: an enumeration is accepted exactly if its attributes are, it has the representation `u8`, and
every variant is a name with a number of one byte; all of them are read, in order. -/
theorem c69_enum (s : EnumDecl) (e : EnumDesc) : parseUbxEnumType s = .ok e ↔ EnumMeans s e :=
  parseUbxEnumType_iff

/-- **C69**: flags are accepted exactly if they are written as described by `FlagsMeans`; name, number of
bits and constants are read as written. -/
theorem c69_flags (s : FlagsDecl) (d : FlagsDesc) (f : Option FromFn) (r : Option Rest) :
    parseBitflags s = .ok (d, f, r) ↔ FlagsMeans s d f r :=
  parseBitflags_iff

/-- **C69**: the list of packets is accepted exactly if it is written as described by `RecvMeans`; all
names are read, in order. -/
theorem c69_list (ts : List Tok) (r : RecvPackets) : parseIdentsList ts = .ok r ↔ RecvMeans ts r :=
  parseIdentsList_iff

/-- **C69**: the enumerations of the crate are accepted as those of `Gen.allEnums`. -/
theorem c69_crate_enums : enumDecls.map parseUbxEnumType = allEnums.map .ok := by rfl

/-- **C69**: the flags of the crate are accepted as those of `Gen.allFlags`. -/
theorem c69_crate_flags : flagsDecls.map parseBitflags =
    allFlags.map fun d => .ok (d, if d.from_ then some .from else none, some .reserved) := by rfl

/-- **C69**: the list of the crate is `Gen.recvPackets`. -/
theorem c69_crate_list :
    parseIdentsList recvDecl = .ok ⟨"PacketRef", "UbxUnknownPacketRef", recvPackets.map (·.name)⟩ := by rfl

theorem mem_zip_map {α β γ : Type} {f : α → γ} {g : β → γ} {as : List α} {bs : List β}
    (h : as.map f = bs.map g) {a : α} (ha : a ∈ as) : ∃ b ∈ bs, f a = g b := by
  have : f a ∈ bs.map g := h ▸ List.mem_map_of_mem ha
  obtain ⟨b, hb, he⟩ := List.mem_map.mp this
  exact ⟨b, hb, he.symm⟩

/-- **C69**: no enumeration and no flags of the crate are refused by the checks of the code generators. -/
theorem c69_crate_extends :
    (∀ s ∈ enumDecls, ∃ e, parseUbxEnumType s = .ok e ∧ e ∈ allEnums ∧ e.extend = .ok e) ∧
    (∀ s ∈ flagsDecls, ∃ d f r, parseBitflags s = .ok (d, f, r) ∧ d ∈ allFlags ∧ d.extend f r = .ok d) := by
  constructor
  · intro s hs
    obtain ⟨e, he, h⟩ := mem_zip_map c69_crate_enums hs
    exact ⟨e, h, he, (by decide +kernel : ∀ e ∈ allEnums, e.extend = .ok e) e he⟩
  · intro s hs
    obtain ⟨d, hd, h⟩ := mem_zip_map c69_crate_flags hs
    exact ⟨d, _, _, h, hd, (by decide +kernel : ∀ d ∈ allFlags,
      d.extend (if d.from_ then some .from else none) (some .reserved) = .ok d) d hd⟩

example : EnumMeans gpsFix_decl gpsFix_ := (c69_enum _ _).mp rfl

example : FlagsMeans navPvtFlags_decl navPvtFlags_ (some .from) (some .reserved) := (c69_flags _ _ _ _).mp rfl

/-- Of `from` and `from_unchecked` the last one counts. -/
example : ExtendMeans [.fromUnchecked, .from_] ⟨some .from, none, false⟩ :=
  ⟨by decide, rfl, rfl, rfl, by decide⟩

end Ublox.Props
