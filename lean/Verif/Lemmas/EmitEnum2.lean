import Verif.Lemmas.EmitEnum

/-!
# `generate_code_to_extend_enum`: the functions
-/

namespace Ublox.Quote

open Code (Tk Name)
open Emit

set_option maxRecDepth 10000

/-- `ublox_derive/src/output.rs:517-535`: the block for `from` -/
def fromBlock : Sts :=
  (.semi (.assertNe (.call [i!"Some"] (.cons (.path [i!"UbxEnumRestHandling", i!"ErrorProne"]) .nil)) (.field (.path [i!"ubx_enum"]) i!"rest_handling")) <|
        .let_ (.name i!"match_branches") (.call [i!"Vec", i!"with_capacity"] (.cons (.meth (.path [i!"variants"]) i!"len" .nil) .nil)) <|
        .semi (.for_ (.pair (.name i!"id") (.name i!"val")) (.path [i!"variants"]) Gen.generate_code_to_extend_enum_loop3) <|
        .last (.quote [.one (.toks t!"impl"),
          .one (.var i!"name"),
          .one (.toks t!"{ fn from(x:"),
          .one (.var i!"repr_ty"),
          .one (.toks t!") -> Self { match x {"),
          .rep [.var i!"match_branches"] t!",",
          .one (.toks t!"} } }")]))

/-- `ublox_derive/src/output.rs:537-568`: the block for `from_unchecked` -/
def uncheckedBlock : Sts :=
  (.semi (.assertNe (.call [i!"Some"] (.cons (.path [i!"UbxEnumRestHandling", i!"Reserved"]) .nil)) (.field (.path [i!"ubx_enum"]) i!"rest_handling")) <|
        .let_ (.name i!"match_branches") (.call [i!"Vec", i!"with_capacity"] (.cons (.meth (.path [i!"variants"]) i!"len" .nil) .nil)) <|
        .semi (.for_ (.pair (.name i!"id") (.name i!"val")) (.path [i!"variants"]) Gen.generate_code_to_extend_enum_loop2) <|
        .let_ (.name i!"values") (.call [i!"Vec", i!"with_capacity"] (.cons (.meth (.path [i!"variants"]) i!"len" .nil) .nil)) <|
        .semi (.for_ (.pair (.name i!"i") (.pair .wild (.name i!"val"))) (.meth (.meth (.path [i!"variants"]) i!"iter" .nil) i!"enumerate" .nil) Gen.generate_code_to_extend_enum_loop1) <|
        .last (.quote [.one (.toks t!"impl"),
          .one (.var i!"name"),
          .one (.toks t!"{ fn from_unchecked(x:"),
          .one (.var i!"repr_ty"),
          .one (.toks t!") -> Self { match x {"),
          .rep [.var i!"match_branches"] t!",",
          .one (.toks t!", _ => unreachable!(), } } fn is_valid(x:"),
          .one (.var i!"repr_ty"),
          .one (.toks t!") -> bool { match x {"),
          .rep [.var i!"values"] t!"",
          .one (.toks t!"=> true, _ => false, } } }")]))

theorem tyToks_u8 : tyToks (.path [.u8]) = t!"u8" := by decide

theorem eval_errorProne {k : Nat} {w : EnumV} {vs : List V} :
    eval (callsOf Gen.outputRs_fns k) (.assertNe (.call [i!"Some"] (.cons (.path [i!"UbxEnumRestHandling", i!"ErrorProne"]) .nil))
      (.field (.path [i!"ubx_enum"]) i!"rest_handling")) (enumSt2 w vs) =
    if w.rest = some .errorProne then .error .panic else .ok (.val .unit, enumSt2 w vs) := by
  obtain ⟨nm, vars, ats, rest, ff, ir⟩ := w
  rcases rest with _ | ⟨_ | _⟩
  · rw [if_neg (by simp)]; rfl
  · rw [if_neg (by simp)]; rfl
  · rw [if_pos rfl]; rfl

theorem eval_reserved {k : Nat} {w : EnumV} {vs : List V} :
    eval (callsOf Gen.outputRs_fns k) (.assertNe (.call [i!"Some"] (.cons (.path [i!"UbxEnumRestHandling", i!"Reserved"]) .nil))
      (.field (.path [i!"ubx_enum"]) i!"rest_handling")) (enumSt2 w vs) =
    if w.rest = some .reserved then .error .panic else .ok (.val .unit, enumSt2 w vs) := by
  obtain ⟨nm, vars, ats, rest, ff, ir⟩ := w
  rcases rest with _ | ⟨_ | _⟩
  · rw [if_neg (by simp)]; rfl
  · rw [if_pos rfl]; rfl
  · rw [if_neg (by simp)]; rfl

theorem exists_block {r : Res} {ns : List Node} {env : Env} {ts : List Tk} (h : r = .ok (.val (.toks ns), env))
    (ht : flatAll ns = ts) : ∃ ns, r = .ok (.val (.toks ns), env) ∧ flatAll ns = ts := ⟨ns, h, ht⟩

theorem from_block {k : Nat} {w : EnumV} (l : List (String × Nat)) (hr : w.rest ≠ some .errorProne) :
    ∃ ns, scope (enumSt2 w (l.map variantV)).length (eval (callsOf Gen.outputRs_fns k) (.block fromBlock) (enumSt2 w (l.map variantV))) =
        .ok (.val (.toks ns), enumSt2 w (l.map variantV)) ∧
      flatAll ns = t!"impl" ++ .id w.name :: (t!"{ fn from(x: u8) -> Self { match x {" ++
        joinToks t!"," (l.map (branchToks w.name)) ++ t!"} } }") := by
  obtain ⟨ws, hl, hw⟩ := branch_loop3 (k := k) (w := w) (vs := l.map variantV) l
  have hw := hw.flat
  apply exists_block
  · apply scope_eq
    · apply eval_block
      apply scope_eq
      · unfold fromBlock
        apply step_semi
        · rw [eval_errorProne, if_neg hr]
        apply step_name
        · knf
        apply step_for
        · exact rfl
        · exact hl
        knf
      · exact rfl
    · exact rfl
  · simp [flatAll, Node.flat, hw, tyToks_u8]

theorem from_block_fails {k : Nat} {w : EnumV} {vs : List V} (hr : w.rest = some .errorProne) :
    scope (enumSt2 w vs).length (eval (callsOf Gen.outputRs_fns k) (.block fromBlock) (enumSt2 w vs)) = .error .panic := by
  apply scope_error
  apply eval_block
  apply scope_error
  unfold fromBlock
  apply step_panic
  rw [eval_errorProne, if_pos hr]

theorem unchecked_block {k : Nat} {w : EnumV} (l : List (String × Nat)) (hr : w.rest ≠ some .reserved) :
    ∃ ns, scope (enumSt2 w (l.map variantV)).length (eval (callsOf Gen.outputRs_fns k) (.block uncheckedBlock) (enumSt2 w (l.map variantV))) =
        .ok (.val (.toks ns), enumSt2 w (l.map variantV)) ∧
      flatAll ns = t!"impl" ++ .id w.name :: (t!"{ fn from_unchecked(x: u8) -> Self { match x {" ++
        (joinToks t!"," (l.map (branchToks w.name)) ++ .p 44 :: (t!"_ => unreachable!(), } } fn is_valid(x: u8) -> bool { match x {" ++
        (joinToks t!"|" (l.map fun v => [.tnum v.2 i!"u8"]) ++ t!"=> true, _ => false, } } }")))) := by
  obtain ⟨ws, hl, hw⟩ := branch_loop2 (k := k) (w := w) (vs := l.map variantV) l
  obtain ⟨us, ts, hl', hu, ht⟩ := values_loop (k := k) (w := w) (vs := l.map variantV) (bs := ws) l
  have hw := hw.flat
  have hu := hu.flat
  apply exists_block
  · apply scope_eq
    · apply eval_block
      apply scope_eq
      · unfold uncheckedBlock
        apply step_semi
        · rw [eval_reserved, if_neg hr]
        apply step_name
        · knf
        apply step_for
        · exact rfl
        · exact hl
        apply step_name
        · knf
        apply step_for
        · exact rfl
        · exact hl'
        knf
      · exact rfl
    · exact rfl
  · simp [flatAll, Node.flat, hw, hu, joinToks_nil, ht, tyToks_u8]

theorem unchecked_block_fails {k : Nat} {w : EnumV} {vs : List V} (hr : w.rest = some .reserved) :
    scope (enumSt2 w vs).length (eval (callsOf Gen.outputRs_fns k) (.block uncheckedBlock) (enumSt2 w vs)) = .error .panic := by
  apply scope_error
  apply eval_block
  apply scope_error
  unfold uncheckedBlock
  apply step_panic
  rw [eval_reserved, if_pos hr]

theorem variantArms_toks {n : String} (hn : IsName n) {l : List (String × Nat)} (hl : ∀ v ∈ l, IsName v.1) :
    (Rust.variantArms n l).map armToks = l.map (branchToks (Src.codes n)) := by
  rw [Rust.variantArms, List.map_map]
  refine List.map_congr_left fun v hv => ?_
  simp [armToks, patToks, joinToks, exprToks, path_pair hn (hl v hv), branchToks]

theorem from_toks {n : String} (hn : IsName n) {l : List (String × Nat)} (hl : ∀ v ∈ l, IsName v.1) :
    matchToks (Rust.enumFromCode n l) = t!"{ match x {" ++ joinToks t!"," (l.map (branchToks (Src.codes n))) ++ t!"} }" := by
  simp only [matchToks, Rust.enumFromCode, variantArms_toks hn hl]
  simp [exprToks, varToks]

theorem unchecked_toks {n : String} (hn : IsName n) {l : List (String × Nat)} (hl : ∀ v ∈ l, IsName v.1) (hne : l ≠ []) :
    bodyToks (Rust.enumFromUncheckedCode n l) = t!"{ match x {" ++ (joinToks t!"," (l.map (branchToks (Src.codes n))) ++
      .p 44 :: t!"_ => unreachable!(), } }") := by
  rw [join_comma (by simpa using hne), ← variantArms_toks hn hl, bodyToks, Rust.enumFromUncheckedCode]
  have := armsToks_plain (as := Rust.variantArms n l) (by
    intro a ha
    obtain ⟨v, -, rfl⟩ := List.mem_map.1 ha
    exact ⟨_, _, rfl⟩) [.plain .wild .unreachable]
  simp only [stmtsToks, stmtToks, exprToks, varToks, this]
  simp [armsToks, patToks, exprToks, stmtEnd, Function.comp_def]

theorem valid_toks (l : List (String × Nat)) : bodyToks (Rust.enumIsValidCode l) = t!"{ match x {" ++
    (joinToks t!"|" (l.map fun v => [.tnum v.2 i!"u8"]) ++ t!"=> true, _ => false, } }") := by
  simp [bodyToks, Rust.enumIsValidCode, stmtsToks, stmtToks, exprToks, varToks, armsToks, patToks, path_lits, stmtEnd,
    Function.comp_def]

/-- The code after the variants and the function -/
theorem rest_enum {k : Nat} {attrs : List (List Tk)} {e : EnumDesc} {l : List (String × Nat)} {ns : List Node} :
    Gives (evalS (callsOf Gen.outputRs_fns k) (.let_ (.name i!"to_code") (.match_ (.field (.path [i!"ubx_enum"]) i!"into_fn")
      (.cons (.ctor0 [i!"None"]) (.quote [])
      (.cons (.ctor1 [i!"Some"] (.ctor0 [i!"UbxTypeIntoFn", i!"Raw"])) (.quote [.one (.toks t!"impl"),
        .one (.var i!"name"),
        .one (.toks t!"{ const fn into_raw(self) ->"),
        .one (.var i!"repr_ty"),
        .one (.toks t!"{ self as"),
        .one (.var i!"repr_ty"),
        .one (.toks t!"} }")])
      .nil))) <|
    .let_ (.name i!"enum_variants") (.call [i!"Vec", i!"with_capacity"] (.cons (.meth (.path [i!"variants"]) i!"len" .nil) .nil)) <|
    .semi (.for_ (.pair (.name i!"id") (.name i!"val")) (.path [i!"variants"]) Gen.generate_code_to_extend_enum_loop0) <|
    .let_ (.name i!"code") (.quote [.rep [.var i!"attrs"] t!"",
      .one (.toks t!"pub enum"),
      .one (.var i!"name"),
      .one (.toks t!"{"),
      .rep [.var i!"enum_variants"] t!",",
      .one (.toks t!"}"),
      .one (.var i!"from_code"),
      .one (.var i!"to_code"),
      .one (.toks t!"#[cfg(feature = \"serde\")] impl serde:: Serialize for"),
      .one (.var i!"name"),
      .one (.toks t!"{ fn serialize < S > (&self, serializer: S) -> Result < S:: Ok, S:: Error > where S: serde:: Serializer, { serializer.serialize_u8(* self as u8) } }")]) <|
    .last (.path [i!"code"])) ((i!"from_code", .toks ns) :: enumSt2 (enumV attrs e) (l.map variantV)))
    (attrs.flatten ++ t!"pub enum" ++ ident e.name ++ t!"{" ++ joinToks t!"," (l.map enumVariantToks) ++ t!"}" ++ flatAll ns ++
      (if e.intoRaw then t!"impl" ++ ident e.name ++ t!"{ const fn into_raw(self) -> u8 { self as u8 } }" else []) ++
      t!"#[cfg(feature = \"serde\")] impl serde::Serialize for" ++ ident e.name ++ t!"{" ++ serializeHead ++
      t!"{ serializer.serialize_u8(*self as u8) } }") := by
  have hattrs : flatRounds (attrs.map ((fun v => [v.node]) ∘ V.toks ∘ fun a => [Node.tks a])) = attrs := by
    rw [flatRounds_eq, List.map_map]
    conv_rhs => rw [← List.map_id attrs]
    exact List.map_congr_left fun a _ => by simp [V.node, flatAll, Node.flat]
  obtain ⟨nm, ff, rest, ir, vs⟩ := e
  cases ir
  · obtain ⟨ws, hl, hw⟩ := variant_loop (k := k) (w := enumV attrs ⟨nm, ff, rest, false, vs⟩) (vs := l.map variantV)
      (a := .toks []) (b := .toks ns) l
    have hw := hw.flat
    apply gives
    · apply step_name
      · knf
      apply step_name
      · knf
      apply step_for
      · exact rfl
      · exact hl
      apply step_name
      · knf
      exact rfl
    · simp only [flatAll, Node.flat, hw]
      simp [joinToks_nil, ident, serializeHead, enumV, hattrs]
  · obtain ⟨ws, hl, hw⟩ := variant_loop (k := k) (w := enumV attrs ⟨nm, ff, rest, true, vs⟩) (vs := l.map variantV)
      (a := .toks [.tks t!"impl", .tks [.id (Src.codes nm)], .tks t!"{ const fn into_raw(self) ->", .ty (.path [.u8]),
        .tks t!"{ self as", .ty (.path [.u8]), .tks t!"} }"]) (b := .toks ns) l
    have hw := hw.flat
    apply gives
    · apply step_name
      · exact rfl
      apply step_name
      · knf
      apply step_for
      · exact rfl
      · exact hl
      apply step_name
      · knf
      exact rfl
    · simp only [flatAll, Node.flat, hw]
      simp [joinToks_nil, ident, serializeHead, enumV, hattrs, tyToks_u8]

theorem into_enum_toks : bodyToks Rust.enumIntoRawCode = t!"{ self as u8 }" := by
  simp [bodyToks, Rust.enumIntoRawCode, stmtsToks, stmtToks, exprToks, varToks, intTyToks, stmtEnd]

theorem serialize_enum_toks (h : String) : bodyToks ⟨"", h, "serialize", [.self_, .serializer],
      [.tail (.meth (.var .serializer) (.serializeNum "u8") [.cast (.deref (.var .self_)) .u8])]⟩ =
    t!"{ serializer.serialize_u8(*self as u8) }" := by
  simp [bodyToks, stmtsToks, stmtToks, exprToks, varToks, intTyToks, stmtEnd, methToks, exprsToks, ident, codesLit]

theorem emits_enum (k : Nat) (attrs : List (List Tk)) (e : EnumDesc) (he : EnumOk e) :
    match Rust.generateEnumCode e with
    | .ok code => Emits Gen.outputRs_fns (k + 1) i!"generate_code_to_extend_enum" [.enum (enumV attrs e)] (enumToks attrs code)
    | .error _ => run Gen.outputRs_fns (k + 1) i!"generate_code_to_extend_enum" [.enum (enumV attrs e)] = .error .panic := by
  rw [generate_enum]
  have hn := full_names he
  have hne := full_ne he
  have hvs : (enumV attrs e).variants.map (fun v => V.pair (.ident v.1) (.num v.2 i!"u8")) =
      e.variants.map fun v => variantV (v.1, v.2.toNat) := by
    simp only [enumV, List.map_map]
    rfl
  -- the statements before the function
  have pre : ∀ {r : Sts} {res : Res}, evalS (callsOf Gen.outputRs_fns k) r (enumSt2 (enumV attrs e) ((fullVariants e).map variantV)) = res →
      evalS (callsOf Gen.outputRs_fns k) (
        .semi (.assertEq (.field (.path [i!"ubx_enum"]) i!"repr") (.block
          (.let_ (.name i!"ty") (.parse t!"u8") <|
          .last (.path [i!"ty"])))) <|
        .let_ (.name i!"name") (.field (.path [i!"ubx_enum"]) i!"name") <|
        .let_ (.name i!"variants") (.meth (.field (.path [i!"ubx_enum"]) i!"variants") i!"clone" .nil) <|
        .let_ (.name i!"attrs") (.field (.path [i!"ubx_enum"]) i!"attrs") <|
        .semi (.ifLet (.ctor1 [i!"Some"] (.ctor0 [i!"UbxEnumRestHandling", i!"Reserved"])) (.field (.path [i!"ubx_enum"]) i!"rest_handling")
          (.let_ (.name i!"defined") (.meth (.methFn (.meth (.field (.path [i!"ubx_enum"]) i!"variants") i!"iter" .nil) i!"map" .nil [i!"x"] (.field (.path [i!"x"]) 49)) i!"collect" .nil) <|
          .last (.for_ (.name i!"i") (.rangeIncl (.num 0 0) (.call [i!"u8", i!"max_value"] .nil)) Gen.generate_code_to_extend_enum_loop4)) .nil) <|
        .let_ (.name i!"repr_ty") (.field (.path [i!"ubx_enum"]) i!"repr") r) [(i!"ubx_enum", .enum (enumV attrs e))] = res := by
    intro r res h
    apply step_semi
    · knf
    apply step_name
    · knf
    refine step_name (v := .list (e.variants.map fun v => variantV (v.1, v.2.toNat))) (env' := [(i!"name", .ident (enumV attrs e).name),
      (i!"ubx_enum", .enum (enumV attrs e))]) ?_ ?_
    · rw [← hvs]; rfl
    apply step_name
    · knf
    apply step_semi
    · exact enum_reserved
    apply step_name
    · exact rfl
    exact h
  have good : ∀ {ns : List Node}, eval (callsOf Gen.outputRs_fns k) (.match_ (.field (.path [i!"ubx_enum"]) i!"from_fn")
      (.cons (.ctor1 [i!"Some"] (.ctor0 [i!"UbxTypeFromFn", i!"From"])) (.block fromBlock)
      (.cons (.ctor1 [i!"Some"] (.ctor0 [i!"UbxTypeFromFn", i!"FromUnchecked"])) (.block uncheckedBlock)
      (.cons (.ctor0 [i!"None"]) (.quote [])
      .nil)))) (enumSt2 (enumV attrs e) ((fullVariants e).map variantV)) =
        .ok (.val (.toks ns), enumSt2 (enumV attrs e) ((fullVariants e).map variantV)) →
      Emits Gen.outputRs_fns (k + 1) i!"generate_code_to_extend_enum" [.enum (enumV attrs e)]
        (attrs.flatten ++ t!"pub enum" ++ ident e.name ++ t!"{" ++ joinToks t!"," ((fullVariants e).map enumVariantToks) ++ t!"}" ++ flatAll ns ++
          (if e.intoRaw then t!"impl" ++ ident e.name ++ t!"{ const fn into_raw(self) -> u8 { self as u8 } }" else []) ++
          t!"#[cfg(feature = \"serde\")] impl serde::Serialize for" ++ ident e.name ++ t!"{" ++ serializeHead ++
          t!"{ serializer.serialize_u8(*self as u8) } }") := by
    intro ns hres
    obtain ⟨ns', env', h, ht⟩ := rest_enum (k := k) (attrs := attrs) (e := e) (l := fullVariants e) (ns := ns)
    refine Gives.emits (f := Gen.generate_code_to_extend_enum) ⟨ns', env', ?_, ht⟩ rfl
    exact pre (step_name hres h)
  have bad : eval (callsOf Gen.outputRs_fns k) (.match_ (.field (.path [i!"ubx_enum"]) i!"from_fn")
      (.cons (.ctor1 [i!"Some"] (.ctor0 [i!"UbxTypeFromFn", i!"From"])) (.block fromBlock)
      (.cons (.ctor1 [i!"Some"] (.ctor0 [i!"UbxTypeFromFn", i!"FromUnchecked"])) (.block uncheckedBlock)
      (.cons (.ctor0 [i!"None"]) (.quote [])
      .nil)))) (enumSt2 (enumV attrs e) ((fullVariants e).map variantV)) = .error .panic →
      run Gen.outputRs_fns (k + 1) i!"generate_code_to_extend_enum" [.enum (enumV attrs e)] = .error .panic := by
    intro hres
    apply run_panic (f := Gen.generate_code_to_extend_enum) rfl
    exact pre (step_let_error hres)
  have hinto : ∀ c : Rust.EnumCode, c.name = e.name → c.intoRaw = (if e.intoRaw then some Rust.enumIntoRawCode else none) →
      enumIntoToks c =
      if e.intoRaw then t!"impl" ++ ident e.name ++ t!"{ const fn into_raw(self) -> u8 { self as u8 } }" else [] := by
    intro c h₁ h₂
    delta enumIntoToks
    rw [h₁, h₂]
    cases e.intoRaw
    · rfl
    · simp [into_enum_toks]
  have hf : ∀ x, e.fromFn = x → eval (callsOf Gen.outputRs_fns k) (.field (.path [i!"ubx_enum"]) i!"from_fn")
      (enumSt2 (enumV attrs e) ((fullVariants e).map variantV)) =
      .ok (.val (optV (x.map fromFnV)), enumSt2 (enumV attrs e) ((fullVariants e).map variantV)) := by
    rintro x rfl
    rfl
  have hlast : ∀ c : Rust.EnumCode, c.name = e.name → c.variants = fullVariants e →
      c.intoRaw = (if e.intoRaw then some Rust.enumIntoRawCode else none) →
      c.serialize = ⟨"", Rust.serializeHead, "serialize", [.self_, .serializer],
        [.tail (.meth (.var .serializer) (.serializeNum "u8") [.cast (.deref (.var .self_)) .u8])]⟩ →
      enumToks attrs c = attrs.flatten ++ t!"pub enum" ++ ident e.name ++ t!"{" ++
          joinToks t!"," ((fullVariants e).map enumVariantToks) ++ t!"}" ++ enumFromToks c ++
          (if e.intoRaw then t!"impl" ++ ident e.name ++ t!"{ const fn into_raw(self) -> u8 { self as u8 } }" else []) ++
          t!"#[cfg(feature = \"serde\")] impl serde::Serialize for" ++ ident e.name ++ t!"{" ++ serializeHead ++
          t!"{ serializer.serialize_u8(*self as u8) } }" := by
    intro c h₁ h₂ h₃ h₄
    delta enumToks
    rw [hinto _ h₁ h₃, h₁, h₂, h₄, serialize_enum_toks]
    simp only [List.append_assoc]
    rfl
  simp only
  match hff : e.fromFn with
  | none =>
    have := good (ns := []) (by
      have h := hf _ hff
      rw [eval, h]
      rfl)
    simp only
    rw [hlast _ rfl rfl rfl rfl]
    exact this
  | some .from =>
    have h := hf _ hff
    by_cases hr : e.rest = some .errorProne
    · simp only [if_pos hr]
      exact bad (eval_first h rfl (from_block_fails hr))
    · simp only [if_neg hr]
      obtain ⟨ns, hb, hns⟩ := from_block (k := k) (w := enumV attrs e) (fullVariants e) hr
      rw [hlast _ rfl rfl rfl rfl]
      simp only [enumFromToks, from_toks he.1 hn]
      have := good (eval_first h rfl hb)
      rw [hns, show (enumV attrs e).name = Src.codes e.name from rfl] at this
      simpa [ident] using this
  | some .fromUnchecked =>
    have h := hf _ hff
    by_cases hr : e.rest = some .reserved
    · simp only [if_pos hr]
      exact bad (eval_second h rfl rfl (unchecked_block_fails hr))
    · simp only [if_neg hr]
      obtain ⟨ns, hb, hns⟩ := unchecked_block (k := k) (w := enumV attrs e) (fullVariants e) hr
      rw [hlast _ rfl rfl rfl rfl]
      simp only [enumFromToks, unchecked_toks he.1 hn hne, valid_toks]
      have := good (eval_second h rfl rfl hb)
      rw [hns, show (enumV attrs e).name = Src.codes e.name from rfl] at this
      simpa [ident] using this

end Ublox.Quote
