import Verif.Lemmas.InputDecl

/-! Lemmas about the reading of enumerations, flags and the list of packets. -/

namespace Ublox.Syn
open Spec

/-- `from` and `from_unchecked` -/
def fromWord : Word → Option FromFn
  | .from_ => some FromFn.from | .fromUnchecked => some FromFn.fromUnchecked | _ => none

/-- `rest_reserved` and `rest_error` -/
def restWord : Word → Option Rest
  | .restReserved => some Rest.reserved | .restError => some Rest.errorProne | _ => none

/-- What the variables are after the words. -/
structure ExtendVarsMean (ws : List Word) (v : ExtendVars) : Prop where
  words : ∀ w ∈ ws, w = .from_ ∨ w = .fromUnchecked ∨ w = .intoRaw ∨ w = .restReserved ∨ w = .restError
  fromFn : v.fromFn = (ws.filterMap fromWord).getLast?
  intoRaw : v.intoRaw = decide (.intoRaw ∈ ws)
  rest : ws.filterMap restWord = v.rest.toList

theorem extendFold_iff (ws : List Word) (v : ExtendVars) :
    (ws.map NestedMeta.path).foldlM extendStep {} = .ok v ↔ ExtendVarsMean ws v := by
  induction ws using List.reverseRecOn generalizing v with
  | nil =>
    constructor
    · intro h; cases h; exact ⟨by simp, rfl, rfl, rfl⟩
    · rintro ⟨_, h1, h2, h3⟩
      obtain ⟨f, r, i⟩ := v
      simp at h1 h2 h3
      have : r = none := by cases r <;> simp_all
      subst h1 h2 this
      rfl
  | append_singleton ws w ih =>
    rw [List.map_append, List.foldlM_append, ok_bind]
    simp only [ih, List.map_cons, List.map_nil, List.foldlM_cons, List.foldlM_nil, ok_bind]
    constructor
    · rintro ⟨⟨f, r, i⟩, ⟨h1, h2, h3, h4⟩, v1, h5, h6⟩
      cases h6
      simp only at h2 h3 h4
      unfold extendStep at h5
      split at h5
      · rename_i heq; cases heq; cases h5
        refine ⟨?_, ?_, ?_, ?_⟩
        · intro x hx; rcases List.mem_append.mp hx with hx | hx
          · exact h1 x hx
          · simp at hx; subst hx; simp
        · simp [fromWord]
        · simp [h3]
        · simp [List.filterMap_append, restWord, h4]
      · rename_i heq; cases heq; cases h5
        refine ⟨?_, ?_, ?_, ?_⟩
        · intro x hx; rcases List.mem_append.mp hx with hx | hx
          · exact h1 x hx
          · simp at hx; subst hx; simp
        · simp [fromWord, h2]
        · simp
        · simp [List.filterMap_append, restWord, h4]
      · rename_i heq; cases heq; cases h5
        refine ⟨?_, ?_, ?_, ?_⟩
        · intro x hx; rcases List.mem_append.mp hx with hx | hx
          · exact h1 x hx
          · simp at hx; subst hx; simp
        · simp [fromWord]
        · simp [h3]
        · simp [List.filterMap_append, restWord, h4]
      · rename_i heq; cases heq
        cases r with
        | some x => cases h5
        | none =>
          cases h5
          refine ⟨?_, ?_, ?_, ?_⟩
          · intro x hx; rcases List.mem_append.mp hx with hx | hx
            · exact h1 x hx
            · simp at hx; subst hx; simp
          · simp [fromWord, h2]
          · simp [h3]
          · simp [List.filterMap_append, restWord, h4]
      · rename_i heq; cases heq
        cases r with
        | some x => cases h5
        | none =>
          cases h5
          refine ⟨?_, ?_, ?_, ?_⟩
          · intro x hx; rcases List.mem_append.mp hx with hx | hx
            · exact h1 x hx
            · simp at hx; subst hx; simp
          · simp [fromWord, h2]
          · simp [h3]
          · simp [List.filterMap_append, restWord, h4]
      · cases h5
    · rintro ⟨h1, h2, h3, h4⟩
      have hw := h1 w (by simp)
      have h1' : ∀ w ∈ ws, _ := fun x hx => h1 x (List.mem_append_left _ hx)
      obtain ⟨f, r, i⟩ := v
      simp only at h2 h3 h4
      rcases hw with rfl | rfl | rfl | rfl | rfl
      · rw [List.filterMap_append, show [Word.from_].filterMap fromWord = [FromFn.from] from rfl, List.getLast?_concat] at h2
        rw [List.filterMap_append, show [Word.from_].filterMap restWord = [] from rfl, List.append_nil] at h4
        simp at h3
        exact ⟨⟨(ws.filterMap fromWord).getLast?, r, i⟩, ⟨h1', rfl, h3, h4⟩, _, rfl, by rw [h2]; rfl⟩
      · rw [List.filterMap_append, show [Word.fromUnchecked].filterMap fromWord = [FromFn.fromUnchecked] from rfl, List.getLast?_concat] at h2
        rw [List.filterMap_append, show [Word.fromUnchecked].filterMap restWord = [] from rfl, List.append_nil] at h4
        simp at h3
        exact ⟨⟨(ws.filterMap fromWord).getLast?, r, i⟩, ⟨h1', rfl, h3, h4⟩, _, rfl, by rw [h2]; rfl⟩
      · rw [List.filterMap_append, show [Word.intoRaw].filterMap fromWord = [] from rfl, List.append_nil] at h2
        rw [List.filterMap_append, show [Word.intoRaw].filterMap restWord = [] from rfl, List.append_nil] at h4
        simp at h3
        exact ⟨⟨f, r, decide (.intoRaw ∈ ws)⟩, ⟨h1', h2, rfl, h4⟩, _, rfl, by rw [h3]; rfl⟩
      · rw [List.filterMap_append, show [Word.restReserved].filterMap fromWord = [] from rfl, List.append_nil] at h2
        rw [List.filterMap_append, show [Word.restReserved].filterMap restWord = [Rest.reserved] from rfl] at h4
        simp at h3
        have hr : r = some .reserved ∧ ws.filterMap restWord = [] := by
          cases r with
          | none => simp at h4
          | some x =>
            simp at h4
            cases hq : ws.filterMap restWord with
            | nil => rw [hq] at h4; simp at h4; exact ⟨by rw [h4], rfl⟩
            | cons a as => rw [hq] at h4; simp at h4
        obtain ⟨rfl, hn⟩ := hr
        exact ⟨⟨f, none, i⟩, ⟨h1', h2, h3, hn⟩, _, rfl, rfl⟩
      · rw [List.filterMap_append, show [Word.restError].filterMap fromWord = [] from rfl, List.append_nil] at h2
        rw [List.filterMap_append, show [Word.restError].filterMap restWord = [Rest.errorProne] from rfl] at h4
        simp at h3
        have hr : r = some .errorProne ∧ ws.filterMap restWord = [] := by
          cases r with
          | none => simp at h4
          | some x =>
            simp at h4
            cases hq : ws.filterMap restWord with
            | nil => rw [hq] at h4; simp at h4; exact ⟨by rw [h4], rfl⟩
            | cons a as => rw [hq] at h4; simp at h4
        obtain ⟨rfl, hn⟩ := hr
        exact ⟨⟨f, none, i⟩, ⟨h1', h2, h3, hn⟩, _, rfl, rfl⟩

theorem extend_paths {ns : List NestedMeta} {v0 v : ExtendVars}
    (h : ns.foldlM extendStep v0 = .ok v) : ∃ ws : List Word, ns = ws.map NestedMeta.path := by
  induction ns generalizing v0 with
  | nil => exact ⟨[], rfl⟩
  | cons n ns ih =>
    rw [List.foldlM_cons, ok_bind] at h
    obtain ⟨v1, hs, h⟩ := h
    obtain ⟨ws, rfl⟩ := ih h
    cases n with
    | path w => exact ⟨w :: ws, rfl⟩
    | nameValue w l => cases hs
    | lit l => cases hs

theorem parseUbxExtendAttrs_iff {attrs : List Attr} {v : ExtendVars} :
    parseUbxExtendAttrs attrs = .ok v ↔ ExtendAttrs attrs v := by
  unfold parseUbxExtendAttrs
  constructor
  · intro he
    split at he
    · cases he
    · rename_i a ha
      rw [ok_bind] at he
      obtain ⟨m, hm, he⟩ := he
      cases m with
      | path => cases he
      | nameValue l => cases he
      | list ns =>
        simp only [ok_bind] at he
        obtain ⟨v', hf, he⟩ := he
        split at he
        · cases he
        · rename_i hn
          cases he
          obtain ⟨ws, rfl⟩ := extend_paths hf
          obtain ⟨ts, hb, hl⟩ := parseMeta_list.mp hm
          obtain ⟨h1, h2, h3, h4⟩ := (extendFold_iff _ _).mp hf
          exact ⟨ts, ws, find_firstParen.mp ⟨a, ha, hb⟩, listed_map (f := NestedMeta.path).mp hl,
            h1, h2, h3, h4, fun hx hy => hn ⟨hx, hy⟩⟩
  · rintro ⟨ts, ws, hf, hl, h1, h2, h3, h4, h5⟩
    obtain ⟨a, ha, hb⟩ := find_firstParen.mpr hf
    have hm := parseMeta_list.mpr ⟨ts, hb, listed_map (f := NestedMeta.path).mpr hl⟩
    simp only [ha, ok_bind]
    refine ⟨_, hm, ?_⟩
    simp only [ok_bind]
    refine ⟨v, (extendFold_iff _ _).mpr ⟨h1, h2, h3, h4⟩, ?_⟩
    rw [if_neg (fun hx => h5 hx.1 hx.2)]
    rfl

/-! ## Enumerations -/

theorem listed_single {α : Type} {sep : Tok} {toks : α → List Tok} {a : α} {ts : List Tok} :
    Listed sep toks [a] ts ↔ ts = toks a ∨ ts = toks a ++ [sep] := by
  constructor
  · intro h
    cases h with
    | last => exact .inl rfl
    | cons _ h => cases h; exact .inr rfl
  · rintro (rfl | rfl)
    · exact .last a
    · exact .cons a .nil

theorem checkRepr_iff {attrs : List Attr} {u : Unit} : checkRepr attrs = .ok u ↔
    ∃ ts, FirstParen .repr attrs ts ∧ (ts = [.word .u8] ∨ ts = [.word .u8, .punct ',']) := by
  unfold checkRepr
  constructor
  · intro he
    split at he
    · cases he
    · rename_i a ha
      rw [ok_bind] at he
      obtain ⟨m, hm, he⟩ := he
      split at he
      · rename_i w
        split at he
        · rename_i hw
          subst hw
          obtain ⟨ts, hb, hl⟩ := parseMeta_list.mp hm
          exact ⟨ts, find_firstParen.mp ⟨a, ha, hb⟩, (listed_single (toks := NestedMeta.toks)).mp hl⟩
        · cases he
      · cases he
  · rintro ⟨ts, hf, hl⟩
    obtain ⟨a, ha, hb⟩ := find_firstParen.mpr hf
    have hm := parseMeta_list.mpr ⟨ts, hb, (listed_single (a := NestedMeta.path .u8)).mpr hl⟩
    simp only [ha, ok_bind]
    exact ⟨_, hm, rfl⟩

theorem parseVariant_iff {d : VariantDecl} {v : Variant} : parseVariant d = .ok v ↔ VariantMeans d v := by
  obtain ⟨n, u, o⟩ := d
  obtain ⟨n', x⟩ := v
  unfold parseVariant VariantMeans
  cases u with
  | false => simp
  | true =>
    cases o with
    | none => simp
    | some l =>
      simp only [Bool.not_true, Bool.false_eq_true, if_false, ok_bind, parseInt_iff, pure, Except.pure,
        Except.ok.injEq, Prod.mk.injEq, VariantDecl.mk.injEq, Option.some.injEq, true_and]
      constructor
      · rintro ⟨k, ⟨rfl, hk⟩, rfl, rfl⟩
        refine ⟨rfl, ?_⟩
        simp only [Lit.int.injEq, UInt8.toNat_ofNat']
        omega
      · rintro ⟨rfl, rfl⟩
        exact ⟨x.toNat, ⟨rfl, x.toNat_lt⟩, rfl, by simp⟩

theorem parseUbxEnumType_iff {s : EnumDecl} {e : EnumDesc} :
    parseUbxEnumType s = .ok e ↔ EnumMeans s e := by
  unfold parseUbxEnumType
  simp only [ok_bind, parseUbxExtendAttrs_iff, checkRepr_iff,
    mapM_iff (fun d v => parseVariant_iff (d := d) (v := v)), pure, Except.pure, Except.ok.injEq]
  constructor
  · rintro ⟨v, h1, _, h2, vs, h3, rfl⟩
    exact ⟨rfl, h1, h2, h3⟩
  · rintro ⟨h1, h2, h3, h4⟩
    refine ⟨_, h2, (), h3, _, h4, ?_⟩
    rw [← h1]

/-! ## Flags -/

theorem parseConst_iff {ts rest : List Tok} {c : String × Int} :
    parseConst ts = .ok (c, rest) ↔
      ∃ w pre, c.1 = Word.text w ∧ ConstWritten (w, c.2) pre ∧ ts = pre ++ rest := by
  constructor
  · intro h
    fun_induction parseConst ts with
    | case1 ts ih =>
      obtain ⟨w, pre, h1, h2, rfl⟩ := ih h
      exact ⟨w, .attr :: pre, h1, .attr h2, rfl⟩
    | case2 w n ts =>
      cases h
      exact ⟨w, _, rfl, .const (w, n), rfl⟩
    | case3 => cases h
  · rintro ⟨w, pre, h1, h2, rfl⟩
    obtain ⟨s, n⟩ := c
    simp only at h1 h2
    subst h1
    induction h2 with
    | const => rfl
    | attr _ ih => simp only [List.cons_append, parseConst]; exact ih

theorem constWritten_len {c : Word × Int} {ts : List Tok} (h : ConstWritten c ts) : 4 ≤ ts.length := by
  induction h with
  | const => simp
  | attr _ ih => simp; omega

theorem constWritten_ne {c : Word × Int} {ts : List Tok} (h : ConstWritten c ts) (r : List Tok) :
    ts ++ r ≠ [.punct '}'] := by
  cases h <;> simp

theorem parseConsts_succ {fuel : Nat} {ts : List Tok} (h : ts ≠ [.punct '}']) :
    parseConsts (fuel + 1) ts = (do
      match ← parseConst ts with
      | (c, [.punct '}']) => return [c]
      | (c, .punct ';' :: rest) => return c :: (← parseConsts fuel rest)
      | _ => throw "expected `;`") := by
  rw [parseConsts]
  · rfl
  · exact h

/-- Names as text. -/
def constTexts (cs : List (Word × Int)) : List (String × Int) := cs.map fun c => (c.1.text, c.2)

theorem parseConsts_complete {cs : List (Word × Int)} {ts : List Tok} (h : ConstsWritten cs ts) :
    ∀ fuel, ts.length ≤ fuel → parseConsts fuel (ts ++ [.punct '}']) = .ok (constTexts cs) := by
  induction h with
  | nil => intro fuel _; cases fuel <;> rfl
  | @last c ts hc =>
    intro fuel hf
    have hl := constWritten_len hc
    obtain ⟨fuel, rfl⟩ : ∃ f, fuel = f + 1 := ⟨fuel - 1, by omega⟩
    rw [parseConsts_succ (constWritten_ne hc _),
      parseConst_iff (c := (c.1.text, c.2)).mpr ⟨c.1, ts, rfl, hc, rfl⟩]
    rfl
  | @cons c ts ts' cs hc _ ih =>
    intro fuel hf
    have hl := constWritten_len hc
    simp only [List.length_append, List.length_cons] at hf
    obtain ⟨fuel, rfl⟩ : ∃ f, fuel = f + 1 := ⟨fuel - 1, by omega⟩
    rw [List.append_assoc, parseConsts_succ (constWritten_ne hc _),
      parseConst_iff (c := (c.1.text, c.2)).mpr ⟨c.1, ts, rfl, hc, rfl⟩]
    simp only [bind, Except.bind, List.cons_append, ih fuel (by omega)]
    rfl

theorem parseConsts_sound : ∀ (fuel : Nat) (ts : List Tok) (cs : List (String × Int)),
    parseConsts fuel ts = .ok cs →
      ∃ ws ts', cs = constTexts ws ∧ ConstsWritten ws ts' ∧ ts = ts' ++ [.punct '}'] := by
  intro fuel
  induction fuel with
  | zero =>
    intro ts cs h
    unfold parseConsts at h
    split at h
    · cases h; exact ⟨[], [], rfl, .nil, rfl⟩
    · cases h
    · rename_i hf _; cases hf
  | succ fuel ih =>
    intro ts cs h
    by_cases hts : ts = [.punct '}']
    · subst hts
      cases h
      exact ⟨[], [], rfl, .nil, rfl⟩
    · rw [parseConsts_succ hts, ok_bind] at h
      obtain ⟨⟨c, rest⟩, hc, h⟩ := h
      obtain ⟨w, pre, h1, h2, rfl⟩ := parseConst_iff.mp hc
      have hcw : c = (Word.text w, c.2) := by rw [← h1]
      split at h
      · rename_i heq
        cases heq
        cases h
        exact ⟨[(w, c.2)], pre, by rw [hcw]; rfl, .last h2, rfl⟩
      · rename_i heq
        cases heq
        rw [ok_bind] at h
        obtain ⟨cs', h3, h⟩ := h
        cases h
        obtain ⟨ws, ts', rfl, h4, rfl⟩ := ih _ _ h3
        exact ⟨(w, c.2) :: ws, pre ++ .punct ';' :: ts', by rw [hcw]; rfl, .cons h2 h4, by simp⟩
      · cases h

theorem reprBits_iff {t : Ty} {n : Nat} : reprBits t = .ok n ↔
    ∃ w, (w, n) ∈ [(Word.u8, 8), (.u16, 16), (.u32, 32)] ∧ t = .path [w] := by
  constructor
  · intro h
    unfold reprBits at h
    split at h <;> first | (cases h; exact ⟨_, by decide, rfl⟩) | cases h
  · rintro ⟨w, hw, rfl⟩
    simp at hw
    rcases hw with ⟨rfl, rfl⟩ | ⟨rfl, rfl⟩ | ⟨rfl, rfl⟩ <;> rfl

theorem astBody_iff {s : String} {ts : List Tok} {ast : BitFlagsAst} :
    parseBitFlagsAst.body s ts = .ok ast ↔ ∃ cs ts', TyOk ast.reprTy ∧ ConstsWritten cs ts' ∧
      ast.name = s ∧ ast.items = constTexts cs ∧
      ts = tyToks ast.reprTy ++ .punct '{' :: ts' ++ [.punct '}'] := by
  unfold parseBitFlagsAst.body
  rw [ok_bind]
  constructor
  · rintro ⟨⟨t, r⟩, h1, h2⟩
    obtain ⟨rfl, ht⟩ := parseType_sound _ _ _ _ h1
    split at h2
    · rename_i heq
      cases heq
      rw [ok_bind] at h2
      obtain ⟨cs, h3, h2⟩ := h2
      cases h2
      obtain ⟨ws, ts', rfl, h4, rfl⟩ := parseConsts_sound _ _ _ h3
      exact ⟨ws, ts', ht, h4, rfl, rfl, by simp⟩
    · cases h2
  · rintro ⟨cs, ts', ht, hc, h1, h2, rfl⟩
    refine ⟨(ast.reprTy, .punct '{' :: (ts' ++ [.punct '}'])), ?_, ?_⟩
    · rw [List.append_assoc, List.cons_append]
      exact parseType_complete _ _ _ ht (tyEnd_punct (by decide) (by decide)) (by simp)
    · simp only [ok_bind]
      refine ⟨_, parseConsts_complete hc _ (by simp), ?_⟩
      obtain ⟨n, t, i⟩ := ast
      simp only at h1 h2
      subst h1 h2
      rfl

theorem parseBitFlagsAst_iff {ts : List Tok} {ast : BitFlagsAst} :
    parseBitFlagsAst ts = .ok ast ↔ ∃ docs vis name cs ts', (vis = [] ∨ vis = [.kw .pub]) ∧
      ast.name = Word.text name ∧ TyOk ast.reprTy ∧ ConstsWritten cs ts' ∧ ast.items = constTexts cs ∧
      ts = List.replicate docs .attr ++ vis ++ [.kw .struct, .word name, .punct ':'] ++
        tyToks ast.reprTy ++ .punct '{' :: ts' ++ [.punct '}'] := by
  constructor
  · intro h
    fun_induction parseBitFlagsAst ts with
    | case1 ts ih =>
      obtain ⟨docs, vis, name, cs, ts', h1, h2, h3, h4, h5, rfl⟩ := ih h
      exact ⟨docs + 1, vis, name, cs, ts', h1, h2, h3, h4, h5, by simp [List.replicate_succ]⟩
    | case2 w ts =>
      obtain ⟨cs, ts', h1, h2, h3, h4, rfl⟩ := astBody_iff.mp h
      exact ⟨0, [.kw .pub], w, cs, ts', .inr rfl, h3, h1, h2, h4, by simp⟩
    | case3 w ts =>
      obtain ⟨cs, ts', h1, h2, h3, h4, rfl⟩ := astBody_iff.mp h
      exact ⟨0, [], w, cs, ts', .inl rfl, h3, h1, h2, h4, by simp⟩
    | case4 => cases h
  · rintro ⟨docs, vis, name, cs, ts', h1, h2, h3, h4, h5, rfl⟩
    induction docs with
    | zero =>
      have hb := astBody_iff.mpr ⟨cs, ts', h3, h4, h2, h5, rfl⟩
      rcases h1 with rfl | rfl
      · simpa [parseBitFlagsAst] using hb
      · simpa [parseBitFlagsAst] using hb
    | succ docs ih => simpa [List.replicate_succ, parseBitFlagsAst] using ih

theorem forall₂_map_left {α β γ : Type} {R : β → γ → Prop} {f : α → β} {as : List α} {cs : List γ} :
    List.Forall₂ R (as.map f) cs ↔ List.Forall₂ (fun a c => R (f a) c) as cs :=
  List.forall₂_map_left_iff

theorem parseBitflags_iff {s : FlagsDecl} {d : FlagsDesc} {f : Option FromFn} {r : Option Rest} :
    parseBitflags s = .ok (d, f, r) ↔ FlagsMeans s d f r := by
  unfold parseBitflags
  simp only [ok_bind, parseUbxExtendAttrs_iff, parseBitFlagsAst_iff, reprBits_iff]
  have hc : ∀ (c : String × Int) (d : String × Nat), (do
      return (c.1, ← (Lit.int c.2).parseInt (2 ^ 64)) : Except String (String × Nat)) = .ok d ↔
      d.1 = c.1 ∧ c.2 = d.2 ∧ d.2 < 2 ^ 64 := by
    intro c d
    simp only [ok_bind, parseInt_iff, pure, Except.pure, Except.ok.injEq, Lit.int.injEq]
    constructor
    · rintro ⟨n, ⟨h1, h2⟩, rfl⟩; exact ⟨rfl, h1, h2⟩
    · rintro ⟨h1, h2, h3⟩; exact ⟨d.2, ⟨h2, h3⟩, by rw [← h1]⟩
  simp only [mapM_iff hc]
  constructor
  · rintro ⟨v, h1, ast, ⟨docs, vis, name, cs, ts', h2, h3, h4, h5, h6, h7⟩, n, ⟨w, hw, ht⟩, consts, h8, h9⟩
    cases h9
    refine ⟨h1, by simp, docs, vis, name, w, cs, ts', hw, h2, h3, h5, ?_, ?_⟩
    · rw [h7, ht]; simp [tyToks, pathToks]
    · rw [h6, constTexts, forall₂_map_left] at h8; exact h8
  · rintro ⟨h1, h2, docs, vis, name, w, cs, ts', hw, hv, hn, hc', ht, hf⟩
    refine ⟨_, h1, ⟨d.name, .path [w], constTexts cs⟩,
      ⟨docs, vis, name, cs, ts', hv, hn, by simp [TyOk], hc', rfl, ?_⟩, d.nbits, ⟨w, hw, rfl⟩, d.consts, ?_, ?_⟩
    · rw [ht]; simp [tyToks, pathToks]
    · rw [constTexts, forall₂_map_left]; exact hf
    · have : (f == some FromFn.from) = d.from_ := by
        cases hd : d.from_ with
        | true => simp [h2.mp hd]
        | false =>
          have : f ≠ some .from := fun hx => by rw [h2.mpr hx] at hd; cases hd
          simpa using this
      simp only [this, pure, Except.pure]

/-! ## The list of packets -/

theorem parseIdents_iff {ts : List Tok} {ids : List String} : parseIdents ts = .ok ids ↔
    ∃ ws ts', ids = ws.map Word.text ∧ Listed (.punct ',') (fun w => [.word w]) ws ts' ∧
      ts = ts' ++ [.punct '}'] := by
  constructor
  · intro h
    fun_induction parseIdents ts generalizing ids with
    | case1 => cases h; exact ⟨[], [], rfl, .nil, rfl⟩
    | case2 w => cases h; exact ⟨[w], [.word w], rfl, .last w, rfl⟩
    | case3 w ts ih =>
      rw [ok_bind] at h
      obtain ⟨ids', h1, h⟩ := h
      cases h
      obtain ⟨ws, ts', rfl, h2, rfl⟩ := ih h1
      exact ⟨w :: ws, _, rfl, .cons w h2, by simp⟩
    | case4 => cases h
  · rintro ⟨ws, ts', rfl, h, rfl⟩
    induction h with
    | nil => rfl
    | last w => rfl
    | cons w _ ih =>
      simp only [List.cons_append, List.nil_append, parseIdents, ih]
      rfl

theorem parseIdentsList_iff {ts : List Tok} {r : RecvPackets} :
    parseIdentsList ts = .ok r ↔ RecvMeans ts r := by
  unfold RecvMeans
  constructor
  · intro h
    unfold parseIdentsList at h
    split at h
    · rename_i w u ts'
      rw [ok_bind] at h
      obtain ⟨ids, h1, h⟩ := h
      cases h
      obtain ⟨ws, ts'', rfl, h2, rfl⟩ := parseIdents_iff.mp h1
      exact ⟨w, u, ws, ts'', rfl, h2, by simp⟩
    · cases h
  · rintro ⟨w, u, ws, ts', rfl, h, rfl⟩
    simp only [List.cons_append, List.nil_append, parseIdentsList, ok_bind]
    exact ⟨_, parseIdents_iff.mpr ⟨ws, ts', rfl, h, rfl⟩, rfl⟩

end Ublox.Syn
