import Verif.Spec.Input
import Mathlib.Data.List.Induction

/-! Lemmas about the reading of declarations. -/

namespace Ublox.Syn
open Spec

/-! ## Lists in attributes -/

/-- An element as it is written. -/
def NestedMeta.toks : NestedMeta → List Tok
  | .path w => [.word w]
  | .nameValue w l => [.word w, .punct '=', .lit l]
  | .lit l => [.lit l]

theorem parseNestedMeta_sound {ts : List Tok} {m : NestedMeta} {rest : List Tok}
    (h : parseNestedMeta ts = .ok (m, rest)) : ts = m.toks ++ rest := by
  unfold parseNestedMeta at h
  split at h <;> simp at h <;> obtain ⟨rfl, rfl⟩ := h <;> rfl

theorem parseNestedMeta_complete (m : NestedMeta) (rest : List Tok)
    (h : rest = [] ∨ ∃ r, rest = .punct ',' :: r) : parseNestedMeta (m.toks ++ rest) = .ok (m, rest) := by
  obtain rfl | ⟨r, rfl⟩ := h <;> cases m <;> simp [NestedMeta.toks, parseNestedMeta]

theorem NestedMeta.toks_ne (m : NestedMeta) : 0 < m.toks.length := by cases m <;> simp [NestedMeta.toks]

theorem parseNested_sound : ∀ (fuel : Nat) (ts : List Tok) (ms : List NestedMeta),
    parseNested fuel ts = .ok ms → Listed (.punct ',') NestedMeta.toks ms ts := by
  intro fuel
  induction fuel with
  | zero =>
    intro ts ms h
    cases ts with
    | nil => simp [parseNested] at h; subst h; exact .nil
    | cons t ts => simp [parseNested] at h
  | succ fuel ih =>
    intro ts ms h
    cases ts with
    | nil => simp [parseNested] at h; subst h; exact .nil
    | cons t ts =>
      simp only [parseNested] at h
      cases hp : parseNestedMeta (t :: ts) with
      | error e => rw [hp] at h; cases h
      | ok p =>
        obtain ⟨m, rest⟩ := p
        rw [hp] at h
        have hs := parseNestedMeta_sound hp
        rw [hs]
        match rest, h with
        | [], h =>
          simp [bind, Except.bind, pure, Except.pure] at h
          subst h
          simpa using Listed.last m
        | .punct ',' :: rest, h =>
          simp only [bind, Except.bind, pure, Except.pure] at h
          cases hr : parseNested fuel rest with
          | error e => rw [hr] at h; cases h
          | ok ms' =>
            rw [hr] at h
            simp only [Except.ok.injEq] at h
            subst h
            exact .cons m (ih _ _ hr)
        | .punct c :: rest, h =>
          by_cases hc : c = ','
          · subst hc
            simp only [bind, Except.bind, pure, Except.pure] at h
            cases hr : parseNested fuel rest with
            | error e => rw [hr] at h; cases h
            | ok ms' =>
              rw [hr] at h
              simp only [Except.ok.injEq] at h
              subst h
              exact .cons m (ih _ _ hr)
          · simp [bind, Except.bind, hc] at h
        | .word _ :: _, h => cases h
        | .kw _ :: _, h => cases h
        | .lit _ :: _, h => cases h
        | .attr :: _, h => cases h

theorem parseNested_complete {ms : List NestedMeta} {ts : List Tok}
    (h : Listed (.punct ',') NestedMeta.toks ms ts) :
    ∀ fuel, ts.length ≤ fuel → parseNested fuel ts = .ok ms := by
  induction h with
  | nil => intro fuel _; cases fuel <;> rfl
  | last m =>
    intro fuel hf
    have := m.toks_ne
    cases fuel with
    | zero => omega
    | succ fuel =>
      have hc := parseNestedMeta_complete m [] (.inl rfl)
      rw [List.append_nil] at hc
      cases ht : m.toks with
      | nil => rw [ht] at this; simp at this
      | cons t ts => rw [ht] at hc; simp only [parseNested, hc]; rfl
  | @cons m ms ts _ ih =>
    intro fuel hf
    have hn := m.toks_ne
    cases fuel with
    | zero => simp at hf
    | succ fuel =>
      have hc := parseNestedMeta_complete m (.punct ',' :: ts) (.inr ⟨_, rfl⟩)
      simp only [List.length_append, List.length_cons] at hf
      have hi := ih fuel (by omega)
      cases ht : m.toks with
      | nil => rw [ht] at hn; simp at hn
      | cons t ts' =>
        rw [ht] at hc
        simp only [List.cons_append] at hc ⊢
        simp only [parseNested, hc, bind, Except.bind, hi, pure, Except.pure]

theorem parseNested_iff {ts : List Tok} {ms : List NestedMeta} :
    parseNested ts.length ts = .ok ms ↔ Listed (.punct ',') NestedMeta.toks ms ts :=
  ⟨parseNested_sound _ _ _, fun h => parseNested_complete h _ (Nat.le_refl _)⟩

theorem parseMeta_list {a : Attr} {ms : List NestedMeta} :
    a.parseMeta = .ok (.list ms) ↔ ∃ ts, a.body = .paren ts ∧ Listed (.punct ',') NestedMeta.toks ms ts := by
  unfold Attr.parseMeta
  cases hb : a.body with
  | empty => simp
  | eq l => simp
  | other => simp
  | paren ts =>
    simp only [AttrBody.paren.injEq, exists_eq_left', ← parseNested_iff]
    cases parseNested ts.length ts with
    | error e => simp [bind, Except.bind]
    | ok x => simp [bind, Except.bind, pure, Except.pure]

theorem listed_map {α β : Type} {sep : Tok} {f : α → β} {toks : β → List Tok} {as : List α} {ts : List Tok} :
    Listed sep toks (as.map f) ts ↔ Listed sep (fun a => toks (f a)) as ts := by
  constructor
  · intro h
    generalize hb : as.map f = bs at h
    induction h generalizing as with
    | nil => simp at hb; subst hb; exact .nil
    | last b =>
      match as, hb with
      | [a], hb => simp at hb; subst hb; exact .last (toks := fun a => toks (f a)) a
    | cons b h ih =>
      match as, hb with
      | a :: as, hb =>
        simp only [List.map_cons, List.cons.injEq] at hb
        obtain ⟨rfl, hb'⟩ := hb
        exact .cons (toks := fun a => toks (f a)) a (ih hb')
  · intro h
    induction h with
    | nil => exact .nil
    | last a => exact .last (f a)
    | cons a _ ih => exact .cons (f a) ih

/-- The first attribute with a name. -/
theorem find_firstParen {w : Word} {attrs : List Attr} {ts : List Tok} :
    (∃ a, attrs.find? (fun a => a.path = w) = some a ∧ a.body = .paren ts) ↔ FirstParen w attrs ts := by
  constructor
  · rintro ⟨a, h, hb⟩
    rw [List.find?_eq_some_iff_append] at h
    obtain ⟨hp, before, after, rfl, hn⟩ := h
    refine ⟨before, after, ?_, fun x hx => by simpa using hn x hx⟩
    obtain ⟨p, b⟩ := a
    simp at hp hb
    subst hp hb
    rfl
  · rintro ⟨before, after, rfl, hn⟩
    refine ⟨⟨w, .paren ts⟩, ?_, rfl⟩
    rw [List.find?_eq_some_iff_append]
    exact ⟨by simp, before, after, rfl, fun x hx => by simpa using hn x hx⟩

/-! ## The header -/

theorem parseInt_iff {b : Nat} {l : Lit} {n : Nat} : l.parseInt b = .ok n ↔ l = .int n ∧ n < b := by
  unfold Lit.parseInt
  cases l with
  | int k =>
    simp only [Lit.int.injEq]
    split
    · rename_i h
      simp only [Except.ok.injEq]
      omega
    · simp only [reduceCtorEq, false_iff]
      omega
  | float q => simp
  | str c => simp
  | other => simp

theorem flags_iff {ts : List StrTok} {fl : List PacketFlag} :
    parseStructFlags ts = .ok fl ↔ ∃ n, FlagText ts n ∧ fl = List.replicate n .defaultForBuilder := by
  constructor
  · intro h
    fun_induction parseStructFlags ts generalizing fl with
    | case1 => simp at h; exact ⟨0, .nil, by simp [h]⟩
    | case2 => simp at h; exact ⟨1, .one, by simp [← h]⟩
    | case3 ts ih =>
      cases hp : parseStructFlags ts with
      | error e => rw [hp] at h; cases h
      | ok fl' =>
        rw [hp] at h
        simp only [bind, Except.bind, pure, Except.pure, Except.ok.injEq] at h
        obtain ⟨n, h1, rfl⟩ := ih hp
        exact ⟨n + 1, .cons h1, by rw [← h, List.replicate_succ]⟩
    | case4 => cases h
  · rintro ⟨n, h, rfl⟩
    induction h with
    | nil => rfl
    | one => rfl
    | @cons ts n _ ih =>
      simp only [parseStructFlags, ih, bind, Except.bind, pure, Except.pure, List.replicate_succ]

/-- A key that is given at most once. -/
def OptMeans (b : Nat) (vs : List Lit) (o : Option Nat) : Prop :=
  (vs = [] ∧ o = none) ∨ ∃ n, n < b ∧ vs = [.int n] ∧ o = some n

/-- The flags that have been read. -/
def FlagsMean (vs : List Lit) (fl : List PacketFlag) : Prop :=
  (vs = [] ∧ fl = []) ∨
    ∃ k content n, vs = List.replicate k (.str []) ++ [.str content] ∧
      FlagText content n ∧ fl = List.replicate n .defaultForBuilder

/-- What the variables are after the entries. -/
structure VarsMean (es : List (Word × Lit)) (v : HeaderVars) : Prop where
  keys : ∀ e ∈ es, e.1 = .class_ ∨ e.1 = .id ∨ e.1 = .fixedPayloadLen ∨ e.1 = .maxPayloadLen ∨
    e.1 = .flags
  cls : OptMeans 256 (valuesOf .class_ es) v.cls
  id : OptMeans 256 (valuesOf .id es) v.id
  fixed : OptMeans 65536 (valuesOf .fixedPayloadLen es) v.fixedPayloadLen
  max : OptMeans 65536 (valuesOf .maxPayloadLen es) v.maxPayloadLen
  flags : FlagsMean (valuesOf .flags es) v.flags

theorem valuesOf_snoc (k : Word) (es : List (Word × Lit)) (e : Word × Lit) :
    valuesOf k (es ++ [e]) = valuesOf k es ++ if e.1 = k then [e.2] else [] := by
  unfold valuesOf
  rw [List.filter_append, List.map_append]
  congr 1
  by_cases h : e.1 = k <;> simp [h]

theorem optMeans_snoc {b : Nat} {vs : List Lit} {l : Lit} {o : Option Nat} :
    OptMeans b (vs ++ [l]) o ↔ vs = [] ∧ ∃ n, l.parseInt b = .ok n ∧ o = some n := by
  simp only [OptMeans, parseInt_iff]
  constructor
  · rintro (⟨h, _⟩ | ⟨n, hn, h, rfl⟩)
    · simp at h
    · cases vs with
      | nil => simp at h; exact ⟨rfl, n, ⟨h, hn⟩, rfl⟩
      | cons a as => simp at h
  · rintro ⟨rfl, n, ⟨rfl, hn⟩, rfl⟩
    exact .inr ⟨n, hn, rfl, rfl⟩

theorem optMeans_none {b : Nat} {vs : List Lit} {o : Option Nat} (h : OptMeans b vs o) :
    vs = [] ↔ o = none := by
  obtain ⟨rfl, rfl⟩ | ⟨n, _, rfl, rfl⟩ := h <;> simp

theorem flagText_zero {ts : List StrTok} {n : Nat} (h : FlagText ts n) : n = 0 ↔ ts = [] := by
  cases h <;> simp

theorem flagsMean_empty {vs : List Lit} {fl : List PacketFlag} (h : FlagsMean vs fl) :
    fl = [] ↔ ∃ k, vs = List.replicate k (.str []) := by
  obtain ⟨rfl, rfl⟩ | ⟨k, content, n, rfl, ht, rfl⟩ := h
  · exact ⟨fun _ => ⟨0, rfl⟩, fun _ => rfl⟩
  · have hz := flagText_zero ht
    rw [List.replicate_eq_nil_iff, hz]
    constructor
    · rintro rfl
      exact ⟨k + 1, by rw [List.replicate_succ']⟩
    · rintro ⟨j, hj⟩
      have : Lit.str content ∈ List.replicate j (Lit.str []) := by rw [← hj]; simp
      simpa using List.eq_of_mem_replicate this

theorem flagsMean_snoc {vs : List Lit} {l : Lit} {fl : List PacketFlag} :
    FlagsMean (vs ++ [l]) fl ↔
      (∃ k, vs = List.replicate k (.str [])) ∧ ∃ content, l = .str content ∧ parseStructFlags content = .ok fl := by
  simp only [FlagsMean, flags_iff]
  constructor
  · rintro (⟨h, _⟩ | ⟨k, content, n, h, ht, rfl⟩)
    · simp at h
    · obtain ⟨h1, h2⟩ := List.append_inj' h rfl
      simp at h2
      exact ⟨⟨k, h1⟩, content, h2, n, ht, rfl⟩
  · rintro ⟨⟨k, rfl⟩, content, rfl, n, ht, rfl⟩
    exact .inr ⟨k, content, n, rfl, ht, rfl⟩

theorem VarsMean.nil : VarsMean [] {} :=
  ⟨by simp, .inl ⟨rfl, rfl⟩, .inl ⟨rfl, rfl⟩, .inl ⟨rfl, rfl⟩, .inl ⟨rfl, rfl⟩, .inl ⟨rfl, rfl⟩⟩

theorem VarsMean.nil_eq {v : HeaderVars} (h : VarsMean [] v) : v = {} := by
  obtain ⟨_, h1, h2, h3, h4, h5⟩ := h
  simp only [OptMeans, FlagsMean, valuesOf, List.filter_nil, List.map_nil] at *
  cases v
  simp_all

theorem headerStep_sound {es : List (Word × Lit)} {e : Word × Lit} {v v' : HeaderVars}
    (hv : VarsMean es v) (h : headerStep v (.nameValue e.1 e.2) = .ok v') : VarsMean (es ++ [e]) v' := by
  obtain ⟨k, l⟩ := e
  have hkeys : ∀ {k : Word}, (k = .class_ ∨ k = .id ∨ k = .fixedPayloadLen ∨ k = .maxPayloadLen ∨
      k = .flags) → ∀ e ∈ es ++ [(k, l)], e.1 = .class_ ∨ e.1 = .id ∨ e.1 = .fixedPayloadLen ∨
      e.1 = .maxPayloadLen ∨ e.1 = .flags := by
    intro k hk e he
    rcases List.mem_append.mp he with he | he
    · exact hv.keys e he
    · simp at he; subst he; exact hk
  simp only [headerStep] at h
  split at h
  · rename_i heq
    simp only [NestedMeta.nameValue.injEq] at heq
    obtain ⟨rfl, rfl⟩ := heq
    cases hc : v.cls with
    | some x => rw [hc] at h; cases h
    | none =>
      rw [hc] at h
      cases hp : l.parseInt 256 with
      | error e => rw [hp] at h; cases h
      | ok n =>
        rw [hp] at h
        have h := (Except.ok.inj h).symm
        subst h
        refine ⟨hkeys (by simp), ?_, ?_, ?_, ?_, ?_⟩ <;> simp only [valuesOf_snoc] <;> simp
        · exact optMeans_snoc.mpr ⟨(optMeans_none hv.cls).mpr hc, n, hp, rfl⟩
        · exact hv.id
        · exact hv.fixed
        · exact hv.max
        · exact hv.flags
  · rename_i heq
    simp only [NestedMeta.nameValue.injEq] at heq
    obtain ⟨rfl, rfl⟩ := heq
    cases hc : v.id with
    | some x => rw [hc] at h; cases h
    | none =>
      rw [hc] at h
      cases hp : l.parseInt 256 with
      | error e => rw [hp] at h; cases h
      | ok n =>
        rw [hp] at h
        have h := (Except.ok.inj h).symm
        subst h
        refine ⟨hkeys (by simp), ?_, ?_, ?_, ?_, ?_⟩ <;> simp only [valuesOf_snoc] <;> simp
        · exact hv.cls
        · exact optMeans_snoc.mpr ⟨(optMeans_none hv.id).mpr hc, n, hp, rfl⟩
        · exact hv.fixed
        · exact hv.max
        · exact hv.flags
  · rename_i heq
    simp only [NestedMeta.nameValue.injEq] at heq
    obtain ⟨rfl, rfl⟩ := heq
    cases hc : v.fixedPayloadLen with
    | some x => rw [hc] at h; cases h
    | none =>
      rw [hc] at h
      cases hp : l.parseInt 65536 with
      | error e => rw [hp] at h; cases h
      | ok n =>
        rw [hp] at h
        have h := (Except.ok.inj h).symm
        subst h
        refine ⟨hkeys (by simp), ?_, ?_, ?_, ?_, ?_⟩ <;> simp only [valuesOf_snoc] <;> simp
        · exact hv.cls
        · exact hv.id
        · exact optMeans_snoc.mpr ⟨(optMeans_none hv.fixed).mpr hc, n, hp, rfl⟩
        · exact hv.max
        · exact hv.flags
  · rename_i heq
    simp only [NestedMeta.nameValue.injEq] at heq
    obtain ⟨rfl, rfl⟩ := heq
    cases hc : v.maxPayloadLen with
    | some x => rw [hc] at h; cases h
    | none =>
      rw [hc] at h
      cases hp : l.parseInt 65536 with
      | error e => rw [hp] at h; cases h
      | ok n =>
        rw [hp] at h
        have h := (Except.ok.inj h).symm
        subst h
        refine ⟨hkeys (by simp), ?_, ?_, ?_, ?_, ?_⟩ <;> simp only [valuesOf_snoc] <;> simp
        · exact hv.cls
        · exact hv.id
        · exact hv.fixed
        · exact optMeans_snoc.mpr ⟨(optMeans_none hv.max).mpr hc, n, hp, rfl⟩
        · exact hv.flags
  · rename_i heq
    simp only [NestedMeta.nameValue.injEq] at heq
    obtain ⟨rfl, rfl⟩ := heq
    cases hc : v.flags with
    | cons x xs => rw [hc] at h; cases h
    | nil =>
      rw [hc] at h
      cases l with
      | str content =>
        cases hp : parseStructFlags content with
        | error e => simp [hp, bind, Except.bind] at h
        | ok fl =>
          simp [hp, bind, Except.bind, pure, Except.pure] at h
          subst h
          refine ⟨hkeys (by simp), ?_, ?_, ?_, ?_, ?_⟩ <;> simp only [valuesOf_snoc] <;> simp
          · exact hv.cls
          · exact hv.id
          · exact hv.fixed
          · exact hv.max
          · exact flagsMean_snoc.mpr ⟨(flagsMean_empty hv.flags).mp hc, content, rfl, hp⟩
      | int n => cases h
      | float q => cases h
      | other => cases h
  · cases h

theorem flagsMean_replicate (k : Nat) : FlagsMean (List.replicate k (.str [])) [] := by
  cases k with
  | zero => exact .inl ⟨rfl, rfl⟩
  | succ k => exact .inr ⟨k, [], 0, by rw [List.replicate_succ'], .nil, rfl⟩

theorem headerStep_complete {es : List (Word × Lit)} {e : Word × Lit} {v' : HeaderVars}
    (hv : VarsMean (es ++ [e]) v') :
    ∃ v, VarsMean es v ∧ headerStep v (.nameValue e.1 e.2) = .ok v' := by
  obtain ⟨k, l⟩ := e
  obtain ⟨hkeys, hcls, hid, hfixed, hmax, hflags⟩ := hv
  have hk := hkeys (k, l) (by simp)
  replace hkeys : ∀ e ∈ es, e.1 = .class_ ∨ e.1 = .id ∨ e.1 = .fixedPayloadLen ∨
      e.1 = .maxPayloadLen ∨ e.1 = .flags := fun e he => hkeys e (List.mem_append_left _ he)
  simp only [valuesOf_snoc] at hcls hid hfixed hmax hflags
  simp only at hk
  obtain ⟨cls, id, fixed, fl, max⟩ := v'
  rcases hk with rfl | rfl | rfl | rfl | rfl <;>
    simp only [reduceCtorEq, if_false, if_true, List.append_nil] at hcls hid hfixed hmax hflags
  · obtain ⟨h0, n, hp, rfl⟩ := optMeans_snoc.mp hcls
    refine ⟨⟨none, id, fixed, fl, max⟩, ⟨hkeys, .inl ⟨h0, rfl⟩, hid, hfixed, hmax, hflags⟩, ?_⟩
    simp [headerStep, hp, bind, Except.bind, pure, Except.pure]
  · obtain ⟨h0, n, hp, rfl⟩ := optMeans_snoc.mp hid
    refine ⟨⟨cls, none, fixed, fl, max⟩, ⟨hkeys, hcls, .inl ⟨h0, rfl⟩, hfixed, hmax, hflags⟩, ?_⟩
    simp [headerStep, hp, bind, Except.bind, pure, Except.pure]
  · obtain ⟨h0, n, hp, rfl⟩ := optMeans_snoc.mp hfixed
    refine ⟨⟨cls, id, none, fl, max⟩, ⟨hkeys, hcls, hid, .inl ⟨h0, rfl⟩, hmax, hflags⟩, ?_⟩
    simp [headerStep, hp, bind, Except.bind, pure, Except.pure]
  · obtain ⟨h0, n, hp, rfl⟩ := optMeans_snoc.mp hmax
    refine ⟨⟨cls, id, fixed, fl, none⟩, ⟨hkeys, hcls, hid, hfixed, .inl ⟨h0, rfl⟩, hflags⟩, ?_⟩
    simp [headerStep, hp, bind, Except.bind, pure, Except.pure]
  · obtain ⟨⟨k, h0⟩, content, rfl, hp⟩ := flagsMean_snoc.mp hflags
    refine ⟨⟨cls, id, fixed, [], max⟩,
      ⟨hkeys, hcls, hid, hfixed, hmax, by rw [h0]; exact flagsMean_replicate k⟩, ?_⟩
    simp [headerStep, hp, bind, Except.bind, pure, Except.pure]

/-- An entry as element. -/
def entryMeta (e : Word × Lit) : NestedMeta := .nameValue e.1 e.2

theorem headerFold_iff (es : List (Word × Lit)) (v : HeaderVars) :
    (es.map entryMeta).foldlM headerStep {} = .ok v ↔ VarsMean es v := by
  induction es using List.reverseRecOn generalizing v with
  | nil =>
    constructor
    · intro h; cases h; exact .nil
    · intro h; rw [h.nil_eq]; rfl
  | append_singleton es e ih =>
    rw [List.map_append, List.foldlM_append]
    constructor
    · intro h
      cases hf : (es.map entryMeta).foldlM headerStep {} with
      | error x => rw [hf] at h; cases h
      | ok v0 =>
        rw [hf] at h
        simp only [bind, Except.bind, List.map_cons, List.map_nil, List.foldlM_cons, List.foldlM_nil] at h
        cases hs : headerStep v0 (entryMeta e) with
        | error x => rw [hs] at h; cases h
        | ok v1 =>
          rw [hs] at h
          cases h
          exact headerStep_sound ((ih v0).mp hf) hs
    · intro h
      obtain ⟨v0, h0, hs⟩ := headerStep_complete h
      rw [(ih v0).mpr h0]
      simp only [bind, Except.bind, List.map_cons, List.map_nil, List.foldlM_cons, List.foldlM_nil,
        entryMeta, hs]
      rfl

theorem foldlM_entries {ns : List NestedMeta} {v0 v : HeaderVars}
    (h : ns.foldlM headerStep v0 = .ok v) : ∃ es : List (Word × Lit), ns = es.map entryMeta := by
  induction ns generalizing v0 with
  | nil => exact ⟨[], rfl⟩
  | cons n ns ih =>
    rw [List.foldlM_cons] at h
    cases hs : headerStep v0 n with
    | error e => rw [hs] at h; cases h
    | ok v1 =>
      rw [hs] at h
      obtain ⟨es, rfl⟩ := ih h
      cases n with
      | nameValue w l => exact ⟨(w, l) :: es, rfl⟩
      | path w => cases hs
      | lit l => cases hs

theorem headerEnd_iff {es : List (Word × Lit)} {v : HeaderVars} {h : PackHeader} (hv : VarsMean es v) :
    headerEnd v = .ok h ↔ HeaderMeans es h := by
  obtain ⟨hkeys, hcls, hid, hfixed, hmax, hflags⟩ := hv
  obtain ⟨cls, id, fixed, fl, max⟩ := v
  constructor
  · intro he
    simp only [headerEnd] at he
    obtain ⟨_, rfl⟩ | ⟨c, hc, hc', rfl⟩ := hcls
    · cases he
    obtain ⟨_, rfl⟩ | ⟨i, hi, hi', rfl⟩ := hid
    · cases he
    obtain ⟨hf', rfl⟩ | ⟨f, hf, hf', rfl⟩ := hfixed <;> obtain ⟨hm', rfl⟩ | ⟨m, hm, hm', rfl⟩ := hmax
    · cases he
    · cases he
      exact ⟨hkeys, ⟨hc', hc⟩, ⟨hi', hi⟩, ⟨m, hm, .inr ⟨hf', hm', rfl⟩⟩, hflags⟩
    · cases he
      exact ⟨hkeys, ⟨hc', hc⟩, ⟨hi', hi⟩, ⟨f, hf, .inl ⟨hf', hm', rfl⟩⟩, hflags⟩
    · cases he
  · rintro ⟨_, ⟨hc', hc⟩, ⟨hi', hi⟩, ⟨n, hn, hl⟩, hfl⟩
    have hfl' : fl = h.flags := by
      have h1 : FlagsMean (valuesOf .flags es) fl := hflags
      have h2 : FlagsMean (valuesOf .flags es) h.flags := hfl
      revert h1 h2
      rcases List.eq_nil_or_concat (valuesOf .flags es) with he | ⟨vs, l, he⟩
      · rw [he]
        rintro (⟨_, h1⟩ | ⟨k, c, n, h1, _⟩) (⟨_, h2⟩ | ⟨k', c', n', h2, _⟩)
        · rw [h1, h2]
        · simp at h2
        · simp at h1
        · simp at h1
      · rw [he, List.concat_eq_append, flagsMean_snoc, flagsMean_snoc]
        rintro ⟨_, c, rfl, h1⟩ ⟨_, c', h3, h2⟩
        cases h3
        rw [h1] at h2
        exact Except.ok.inj h2
    obtain ⟨h1, _⟩ | ⟨c, _, h1, rfl⟩ := hcls
    · rw [hc'] at h1; cases h1
    obtain ⟨h2, _⟩ | ⟨i, _, h2, rfl⟩ := hid
    · rw [hi'] at h2; cases h2
    rw [hc'] at h1
    rw [hi'] at h2
    obtain ⟨hcls, hid, hlen, hf⟩ := h
    simp only [List.cons.injEq, Lit.int.injEq, Int.natCast_inj, and_true] at h1 h2 hl hfl'
    subst h1 h2 hfl'
    obtain ⟨h3, rfl⟩ | ⟨f, _, h3, rfl⟩ := hfixed <;> obtain ⟨h4, rfl⟩ | ⟨m, _, h4, rfl⟩ := hmax <;>
      obtain ⟨h5, h6, rfl⟩ | ⟨h5, h6, rfl⟩ := hl <;> rw [h5] at h3 <;> rw [h6] at h4 <;> simp at h3 h4
    · have : n = m := by omega
      subst this; rfl
    · have : n = f := by omega
      subst this; rfl

theorem parseUbxAttr_iff {attrs : List Attr} {h : PackHeader} :
    parseUbxAttr attrs = .ok h ↔ PacketHeader attrs h := by
  constructor
  · intro he
    unfold parseUbxAttr at he
    split at he
    · cases he
    · rename_i a ha
      cases hm : a.parseMeta with
      | error e => rw [hm] at he; cases he
      | ok m =>
        rw [hm] at he
        cases m with
        | path => cases he
        | nameValue l => cases he
        | list ns =>
          simp only [bind, Except.bind] at he
          cases hf : ns.foldlM headerStep {} with
          | error e => rw [hf] at he; cases he
          | ok v =>
            rw [hf] at he
            obtain ⟨es, rfl⟩ := foldlM_entries hf
            obtain ⟨ts, hb, hl⟩ := parseMeta_list.mp hm
            refine ⟨ts, es, find_firstParen.mp ⟨a, ha, hb⟩, listed_map (f := entryMeta).mp hl, ?_⟩
            exact (headerEnd_iff ((headerFold_iff _ _).mp hf)).mp he
  · rintro ⟨ts, es, hf, hl, hh⟩
    obtain ⟨a, ha, hb⟩ := find_firstParen.mpr hf
    have hm := parseMeta_list.mpr ⟨ts, hb, listed_map (f := entryMeta).mpr hl⟩
    simp only [parseUbxAttr, ha, hm, bind, Except.bind]
    obtain ⟨n, hn, hlen⟩ := hh.len
    have hv : ∃ v, VarsMean es v := by
      rcases hlen with ⟨h1, h2, h3⟩ | ⟨h1, h2, h3⟩
      · exact ⟨⟨some h.cls, some h.id, some n, h.flags, none⟩, hh.keys, .inr ⟨_, hh.cls.2, hh.cls.1, rfl⟩,
          .inr ⟨_, hh.id.2, hh.id.1, rfl⟩, .inr ⟨n, hn, h1, rfl⟩, .inl ⟨h2, rfl⟩, hh.flags⟩
      · exact ⟨⟨some h.cls, some h.id, none, h.flags, some n⟩, hh.keys, .inr ⟨_, hh.cls.2, hh.cls.1, rfl⟩,
          .inr ⟨_, hh.id.2, hh.id.1, rfl⟩, .inl ⟨h1, rfl⟩, .inr ⟨n, hn, h2, rfl⟩, hh.flags⟩
    obtain ⟨v, hv⟩ := hv
    rw [(headerFold_iff es v).mpr hv]
    exact (headerEnd_iff hv).mpr hh

/-! ## Paths and types -/

/-- What may stand after a path. -/
def NoColon : List Tok → Prop
  | .punct ':' :: .punct ':' :: _ => False
  | _ => True

/-- What may stand after a type. -/
def TyEnd (ts : List Tok) : Prop := NoColon ts ∧ ∀ r, ts ≠ .punct '<' :: r

theorem parsePathTail_sound (ts : List Tok) :
    ts = ((parsePathTail ts).1.flatMap fun w => [.punct ':', .punct ':', .word w]) ++ (parsePathTail ts).2 := by
  fun_induction parsePathTail ts with
  | case1 w ts r ih => simp only [List.flatMap_cons]; exact congrArg (fun x => _ :: _ :: _ :: x) ih
  | case2 ts h => rfl

theorem parsePathTail_complete (ws : List Word) {rest : List Tok} (h : NoColon rest) :
    parsePathTail ((ws.flatMap fun w => [.punct ':', .punct ':', .word w]) ++ rest) = (ws, rest) := by
  induction ws with
  | nil =>
    simp only [List.flatMap_nil, List.nil_append]
    unfold parsePathTail
    split
    · exact absurd h (by simp [NoColon])
    · rfl
  | cons w ws ih =>
    simp only [List.flatMap_cons, List.cons_append, List.nil_append]
    simp only [parsePathTail, ih]

theorem parsePath_sound {ts rest : List Tok} {p : List Word} (h : parsePath ts = .ok (p, rest)) :
    ts = pathToks p ++ rest ∧ p ≠ [] := by
  unfold parsePath at h
  split at h
  · rename_i w ts'
    simp only [Except.ok.injEq, Prod.mk.injEq] at h
    obtain ⟨rfl, rfl⟩ := h
    simp only [pathToks, List.cons_append, ← parsePathTail_sound]
    simp
  · cases h

theorem parsePath_complete {p : List Word} {rest : List Tok} (hp : p ≠ []) (h : NoColon rest) :
    parsePath (pathToks p ++ rest) = .ok (p, rest) := by
  cases p with
  | nil => exact absurd rfl hp
  | cons w ws => simp only [pathToks, List.cons_append, parsePath, parsePathTail_complete ws h]

theorem parseType_sound : ∀ (fuel : Nat) (ts rest : List Tok) (t : Ty),
    parseType fuel ts = .ok (t, rest) → ts = tyToks t ++ rest ∧ TyOk t := by
  intro fuel
  induction fuel with
  | zero => intro ts rest t h; cases h
  | succ fuel ih =>
    intro ts rest t h
    unfold parseType at h
    split at h
    · cases h
    · rename_i f ts' hf
      cases hf
      cases hp : parseType fuel ts' with
      | error e => rw [hp] at h; cases h
      | ok x =>
        obtain ⟨t', r⟩ := x
        rw [hp] at h
        cases h
        obtain ⟨rfl, h2⟩ := ih _ _ _ hp
        exact ⟨rfl, h2⟩
    · rename_i f ts' hf
      cases hf
      cases hp : parseType fuel ts' with
      | error e => rw [hp] at h; cases h
      | ok x =>
        obtain ⟨t', r⟩ := x
        rw [hp] at h
        obtain ⟨rfl, h2⟩ := ih _ _ _ hp
        simp only [bind, Except.bind] at h
        split at h
        · rename_i heq
          cases heq
          cases h
          exact ⟨by simp [tyToks], h2⟩
        · rename_i heq
          cases heq
          cases h
          exact ⟨by simp [tyToks], h2⟩
        · cases h
    · rename_i ts _ _ f hf h1 h2
      cases hf
      cases hp : parsePath ts with
      | error e => rw [hp] at h; cases h
      | ok x =>
        obtain ⟨p, r⟩ := x
        rw [hp] at h
        obtain ⟨rfl, hne⟩ := parsePath_sound hp
        simp only [bind, Except.bind] at h
        split at h
        · rename_i ts' heq
          cases heq
          cases hq : parseType fuel ts' with
          | error e => rw [hq] at h; cases h
          | ok y =>
            obtain ⟨t', r'⟩ := y
            rw [hq] at h
            obtain ⟨rfl, h3⟩ := ih _ _ _ hq
            simp only at h
            split at h
            · rename_i heq
              cases heq
              cases h
              exact ⟨by simp [tyToks], hne, h3⟩
            · cases h
        · rename_i heq
          cases heq
          cases h
          exact ⟨rfl, hne⟩

theorem pathToks_len {p : List Word} (h : p ≠ []) : 0 < (pathToks p).length := by
  cases p with
  | nil => exact absurd rfl h
  | cons w ws => simp [pathToks]

theorem tyToks_len {t : Ty} (h : TyOk t) : 0 < (tyToks t).length := by
  cases t with
  | path p => exact pathToks_len h
  | other => exact h.elim
  | _ => simp [tyToks] <;> omega

theorem parseType_path {fuel : Nat} {p : List Word} {ts : List Tok} (hp : p ≠ []) :
    parseType (fuel + 1) (pathToks p ++ ts) = (do
      match ← parsePath (pathToks p ++ ts) with
      | (p, .punct '<' :: ts) =>
        match ← parseType fuel ts with
        | (t, .punct '>' :: ts) => return (.generic p t, ts)
        | _ => throw "expected `>`"
      | (p, ts) => return (.path p, ts)) := by
  cases p with
  | nil => exact absurd rfl hp
  | cons w ws =>
    simp only [pathToks, List.cons_append]
    rw [parseType] <;> first | rfl | simp

theorem tyEnd_punct {c : Char} {ts : List Tok} (h1 : c ≠ ':') (h2 : c ≠ '<') : TyEnd (.punct c :: ts) := by
  refine ⟨?_, by simp [h2]⟩
  unfold NoColon
  split
  · rename_i heq; cases heq; exact absurd rfl h1
  · trivial

theorem parseType_complete (t : Ty) : ∀ (fuel : Nat) (rest : List Tok), TyOk t → TyEnd rest →
    (tyToks t).length ≤ fuel → parseType fuel (tyToks t ++ rest) = .ok (t, rest) := by
  induction t with
  | path p =>
    intro fuel rest ht hr hf
    have hl := pathToks_len ht
    obtain ⟨fuel, rfl⟩ : ∃ f, fuel = f + 1 := ⟨fuel - 1, by simp [tyToks] at hf; omega⟩
    simp only [tyToks]
    rw [parseType_path ht, parsePath_complete ht hr.1]
    simp only [bind, Except.bind]
    split
    · rename_i heq; cases heq; exact absurd rfl (hr.2 _)
    · rename_i heq; cases heq; rfl
  | generic p t ih =>
    intro fuel rest ht hr hf
    have hl := pathToks_len ht.1
    simp [tyToks] at hf
    obtain ⟨fuel, rfl⟩ : ∃ f, fuel = f + 1 := ⟨fuel - 1, by omega⟩
    have hi := ih fuel (.punct '>' :: rest) ht.2 (tyEnd_punct (by decide) (by decide)) (by omega)
    simp only [tyToks, List.append_assoc, List.cons_append, List.nil_append]
    rw [parseType_path ht.1, parsePath_complete ht.1 (by trivial)]
    simp only [bind, Except.bind, hi]
    rfl
  | ref t ih =>
    intro fuel rest ht hr hf
    simp [tyToks] at hf
    obtain ⟨fuel, rfl⟩ : ∃ f, fuel = f + 1 := ⟨fuel - 1, by omega⟩
    simp only [tyToks, List.cons_append, parseType, ih fuel rest ht hr (by omega)]
    rfl
  | slice t ih =>
    intro fuel rest ht hr hf
    simp [tyToks] at hf
    obtain ⟨fuel, rfl⟩ : ∃ f, fuel = f + 1 := ⟨fuel - 1, by omega⟩
    have hi := ih fuel (.punct ']' :: rest) ht (tyEnd_punct (by decide) (by decide)) (by omega)
    simp only [tyToks, List.append_assoc, List.cons_append, List.nil_append, parseType, hi]
    rfl
  | array t l ih =>
    intro fuel rest ht hr hf
    simp [tyToks] at hf
    obtain ⟨fuel, rfl⟩ : ∃ f, fuel = f + 1 := ⟨fuel - 1, by omega⟩
    have hi := ih fuel (.punct ';' :: .lit l :: .punct ']' :: rest) ht
      (tyEnd_punct (by decide) (by decide)) (by omega)
    simp only [tyToks, List.append_assoc, List.cons_append, List.nil_append, parseType, hi]
    rfl
  | other => intro fuel rest ht; exact ht.elim

/-! ## Arguments -/

/-- One argument from the beginning of the tokens. -/
def readArg : List Tok → Option (Arg × List Tok)
  | .word .mapType :: .punct '=' :: ts =>
    match parseType ts.length ts with
    | .ok (t, r) => some (.mapType t, r)
    | .error _ => none
  | .word .scale :: .punct '=' :: .lit (.float q) :: ts => some (.scale q, ts)
  | .word .alias :: .punct '=' :: .word w :: ts => some (.alias w, ts)
  | .word .mayFail :: ts => some (.mayFail, ts)
  | .word .from_ :: .punct '=' :: ts =>
    match parsePath ts with
    | .ok (p, r) => some (.from_ p, r)
    | .error _ => none
  | .word .isValid :: .punct '=' :: ts =>
    match parsePath ts with
    | .ok (p, r) => some (.isValid p, r)
    | .error _ => none
  | .word .sizeFn :: .punct '=' :: ts =>
    match parsePath ts with
    | .ok (p, r) => some (.sizeFn p, r)
    | .error _ => none
  | .word .getAsRef :: ts => some (.getAsRef, ts)
  | .word .into :: .punct '=' :: ts =>
    match parsePath ts with
    | .ok (p, r) => some (.into p, r)
    | .error _ => none
  | _ => none

/-- The effect of an argument. -/
def applyArg (v : MapVars) : Arg → MapVars
  | .mapType t => { v with mapTy := some t }
  | .scale q => { v with scale := some q }
  | .alias w => { v with «alias» := some w.text }
  | .mayFail => { v with mayFail := true }
  | .from_ p => { v with fromFn := some p }
  | .isValid p => { v with isValidFn := some p }
  | .sizeFn p => { v with sizeFn := some p }
  | .getAsRef => { v with getAsRef := true }
  | .into p => { v with intoFn := some p }

theorem mapStep_iff {v v' : MapVars} {ts rest : List Tok} :
    mapStep v ts = .ok (v', rest) ↔ ∃ a, readArg ts = some (a, rest) ∧ v' = applyArg v a := by
  unfold mapStep readArg
  split
  · rename_i ts'
    cases hp : parseType ts'.length ts' with
    | error e => simp [bind, Except.bind, hp]
    | ok x => simp [bind, Except.bind, pure, Except.pure, hp]; grind [applyArg]
  all_goals first
    | (rename_i ts'
       cases hp : parsePath ts' with
       | error e => simp [bind, Except.bind, hp]
       | ok x => simp [bind, Except.bind, pure, Except.pure, hp]; grind [applyArg])
    | (simp; grind [applyArg])
    | simp

theorem readArg_sound {ts rest : List Tok} {a : Arg} (h : readArg ts = some (a, rest)) :
    ArgOk a ∧ ts = argToks a ++ rest := by
  unfold readArg at h
  split at h
  · rename_i ts'
    cases hp : parseType ts'.length ts' with
    | error e => rw [hp] at h; cases h
    | ok x =>
      rw [hp] at h
      cases h
      obtain ⟨h1, h2⟩ := parseType_sound _ _ _ _ hp
      exact ⟨h2, by rw [argToks, List.cons_append, List.cons_append, ← h1]⟩
  all_goals first
    | (rename_i ts'
       cases hp : parsePath ts' with
       | error e => rw [hp] at h; cases h
       | ok x =>
         rw [hp] at h
         cases h
         obtain ⟨h1, h2⟩ := parsePath_sound hp
         exact ⟨h2, by rw [argToks, List.cons_append, List.cons_append, ← h1]⟩)
    | (cases h; exact ⟨trivial, rfl⟩)
    | cases h

theorem readArg_complete {a : Arg} {rest : List Tok} (h : ArgOk a) (hr : TyEnd rest) :
    readArg (argToks a ++ rest) = some (a, rest) := by
  cases a with
  | mapType t =>
    simp only [argToks, List.cons_append, readArg]
    rw [parseType_complete t _ rest h hr (by simp)]
  | from_ p => simp only [argToks, List.cons_append, readArg, parsePath_complete h hr.1]
  | isValid p => simp only [argToks, List.cons_append, readArg, parsePath_complete h hr.1]
  | sizeFn p => simp only [argToks, List.cons_append, readArg, parsePath_complete h hr.1]
  | into p => simp only [argToks, List.cons_append, readArg, parsePath_complete h hr.1]
  | scale q => rfl
  | «alias» w => rfl
  | mayFail => rfl
  | getAsRef => rfl

theorem argToks_head (a : Arg) : ∃ w ts, argToks a = .word w :: ts := by
  cases a <;> exact ⟨_, _, rfl⟩

theorem argsWritten_end {as : List Arg} {ts : List Tok} (h : ArgsWritten as ts) : TyEnd ts := by
  cases h with
  | nil => exact ⟨trivial, by simp⟩
  | cons a h1 h2 =>
    obtain ⟨w, r, hw⟩ := argToks_head a
    rw [hw]
    exact ⟨trivial, by simp⟩
  | comma a h1 h2 =>
    obtain ⟨w, r, hw⟩ := argToks_head a
    rw [hw]
    exact ⟨trivial, by simp⟩

theorem argToks_len (a : Arg) : 0 < (argToks a).length := by cases a <;> simp [argToks]

theorem argsWritten_nocomma {as : List Arg} {ts : List Tok} (h : ArgsWritten as ts) : skipComma ts = ts := by
  cases h with
  | nil => rfl
  | cons a h1 h2 => obtain ⟨w, r, hw⟩ := argToks_head a; rw [hw]; rfl
  | comma a h1 h2 => obtain ⟨w, r, hw⟩ := argToks_head a; rw [hw]; rfl

theorem mapLoop_complete {as : List Arg} {ts : List Tok} (h : ArgsWritten as ts) :
    ∀ (fuel : Nat) (v : MapVars), ts.length ≤ fuel → mapLoop fuel v ts = .ok (as.foldl applyArg v) := by
  induction h with
  | nil => intro fuel v _; cases fuel <;> rfl
  | @cons a as ts h1 h2 ih =>
    intro fuel v hf
    have hl := argToks_len a
    rw [List.length_append] at hf
    obtain ⟨fuel, rfl⟩ : ∃ f, fuel = f + 1 := ⟨fuel - 1, by omega⟩
    have hs := mapStep_iff (v := v).mpr ⟨a, readArg_complete h1 (argsWritten_end h2), rfl⟩
    obtain ⟨w, r, hw⟩ := argToks_head a
    rw [hw, List.cons_append] at hs ⊢
    simp only [mapLoop, hs, bind, Except.bind, argsWritten_nocomma h2]
    exact ih fuel _ (by omega)
  | @comma a as ts h1 h2 ih =>
    intro fuel v hf
    have hl := argToks_len a
    rw [List.length_append, List.length_cons] at hf
    obtain ⟨fuel, rfl⟩ : ∃ f, fuel = f + 1 := ⟨fuel - 1, by omega⟩
    have hs := mapStep_iff (v := v).mpr
      ⟨a, readArg_complete h1 (tyEnd_punct (c := ',') (ts := ts) (by decide) (by decide)), rfl⟩
    obtain ⟨w, r, hw⟩ := argToks_head a
    rw [hw, List.cons_append] at hs ⊢
    simp only [mapLoop, hs, bind, Except.bind, skipComma]
    exact ih fuel _ (by omega)

theorem skipComma_cases (ts : List Tok) : skipComma ts = ts ∨ ts = .punct ',' :: skipComma ts := by
  unfold skipComma
  split
  · exact .inr rfl
  · exact .inl rfl

theorem mapLoop_sound : ∀ (fuel : Nat) (v v' : MapVars) (ts : List Tok), mapLoop fuel v ts = .ok v' →
    ∃ as, ArgsWritten as ts ∧ v' = as.foldl applyArg v := by
  intro fuel
  induction fuel with
  | zero =>
    intro v v' ts h
    cases ts with
    | nil => cases h; exact ⟨[], .nil, rfl⟩
    | cons t ts => cases h
  | succ fuel ih =>
    intro v v' ts h
    cases ts with
    | nil => cases h; exact ⟨[], .nil, rfl⟩
    | cons t ts =>
      simp only [mapLoop] at h
      cases hs : mapStep v (t :: ts) with
      | error e => rw [hs] at h; cases h
      | ok x =>
        obtain ⟨v1, rest⟩ := x
        rw [hs] at h
        obtain ⟨a, ha, rfl⟩ := mapStep_iff.mp hs
        obtain ⟨hok, hts⟩ := readArg_sound ha
        obtain ⟨as, h1, h2⟩ := ih _ _ _ h
        refine ⟨a :: as, ?_, h2⟩
        rw [hts]
        rcases skipComma_cases rest with hr | hr
        · rw [hr] at h1; exact .cons a hok h1
        · rw [hr]; exact .comma a hok h1

theorem lastOf_snoc {α : Type} (k : Arg → Option α) (as : List Arg) (a : Arg) :
    lastOf k (as ++ [a]) = (k a).or (lastOf k as) := by
  unfold lastOf
  rw [List.filterMap_append]
  cases h : k a <;> simp [h]

theorem foldl_applyArg (as : List Arg) : mapEnd (as.foldl applyArg {}) = argsMean as := by
  have key : as.foldl applyArg {} =
      { mapTy := lastOf (fun | .mapType t => some t | _ => none) as
        scale := lastOf (fun | .scale q => some q | _ => none) as
        «alias» := lastOf (fun | .alias w => some w.text | _ => none) as
        mayFail := decide (.mayFail ∈ as)
        getAsRef := decide (.getAsRef ∈ as)
        fromFn := lastOf (fun | .from_ p => some p | _ => none) as
        intoFn := lastOf (fun | .into p => some p | _ => none) as
        isValidFn := lastOf (fun | .isValid p => some p | _ => none) as
        sizeFn := lastOf (fun | .sizeFn p => some p | _ => none) as } := by
    induction as using List.reverseRecOn with
    | nil => rfl
    | append_singleton as a ih =>
      rw [List.foldl_append, ih]
      simp only [lastOf_snoc, List.foldl_cons, List.foldl_nil]
      cases a <;> simp [applyArg]
  rw [key]
  rfl

theorem parseFieldMap_iff {ts : List Tok} {m : PackFieldMap} :
    parseFieldMap ts = .ok m ↔ ∃ as, ArgsWritten as ts ∧ m = argsMean as := by
  unfold parseFieldMap
  constructor
  · intro h
    cases hl : mapLoop ts.length {} ts with
    | error e => rw [hl] at h; cases h
    | ok v =>
      rw [hl] at h
      cases h
      obtain ⟨as, h1, rfl⟩ := mapLoop_sound _ _ _ _ hl
      exact ⟨as, h1, foldl_applyArg as⟩
  · rintro ⟨as, h, rfl⟩
    rw [mapLoop_complete h _ _ (Nat.le_refl _)]
    simp only [bind, Except.bind, pure, Except.pure, foldl_applyArg]

end Ublox.Syn
