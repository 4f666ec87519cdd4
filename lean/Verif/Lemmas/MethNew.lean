import Verif.Lemmas.Meth

/-!
# What `PackFieldMapDesc::new` in the text of `types.rs` returns
-/

namespace Ublox.Meth

open Code (Tk Name)
open Quote (O Stop stuck tyToks scaleTok wordsToks fnToks)
open Syn (Ty Word)

set_option maxRecDepth 10000

/-- `from_fn` -/
def fromE : Ex := (.methFn (.field (.path [i!"map_type"]) i!"from_fn") i!"unwrap_or_else" .nil [] (.block
        (.last (.ite (.not (.path [i!"convert_may_fail"]))
          (.last (.quote [.one (.toks t!"<"), .one (.var i!"ty"), .one (.toks t!"> :: from")]))
          (.last (.quote [.one (.toks t!"<"), .one (.var i!"ty"), .one (.toks t!"> :: from_unchecked")]))))))

/-- `is_valid_fn` -/
def validE : Ex := (.methFn (.field (.path [i!"map_type"]) i!"is_valid_fn") i!"unwrap_or_else" .nil [] (.block
        (.last (.quote [.one (.toks t!"<"), .one (.var i!"ty"), .one (.toks t!"> :: is_valid")]))))

/-- `into_fn` -/
def intoE : Ex := (.methFn (.field (.path [i!"map_type"]) i!"into_fn") i!"unwrap_or_else" .nil [] (.block
        (.semi (.ite (.or (.eq (.path [i!"ty"]) (.parse t!"f32")) (.eq (.path [i!"ty"]) (.parse t!"f64")))
          (.last (.ifLet (.ctor [i!"Some"] i!"scale_back") (.path [i!"scale_back"])
            (.let_ i!"conv_method" (.formatIdent c!"as_" c!"" (.meth (.meth (.path [i!"raw_ty"]) i!"into_token_stream" .nil) i!"to_string" .nil)) <|
            .semi (.return_ (.quote [.one (.toks t!"ScaleBack:: <"), .one (.var i!"ty"), .one (.toks t!"> ("), .one (.var i!"scale_back"), .one (.toks t!")."), .one (.var i!"conv_method")])) <|
            .nil) .nil)) .nil) <|
        .last (.quote [.one (.toks t!"<"), .one (.var i!"ty"), .one (.toks t!"> :: into_raw")]))))

/-- The variables around the closure for `map_type` -/
def env0 (x : Syn.PackFieldMap) (raw : Ty) : Env :=
  [(i!"scale_back", optV (fun q => .toks [.float 1 1, .p 47, scaleTok q]) x.scale), (i!"convert_may_fail", .bool x.convertMayFail),
    (i!"raw_ty", .ty raw), (i!"x", mapV x)]

theorem from_fn (M k : Nat) (x : Syn.PackFieldMap) (raw : Ty) (m : Syn.MapType) :
    eval (ctx M k i!"PackFieldMapDesc") fromE ((i!"ty", .ty m.ty) :: (i!"map_type", mapTypeV m) :: env0 x raw) =
      .ok (.val (.toks (fnToks (match m.fromFn with
          | some p => .custom p
          | none => if !x.convertMayFail then .method m.ty .from_ else .method m.ty .fromUnchecked))),
        (i!"ty", .ty m.ty) :: (i!"map_type", mapTypeV m) :: env0 x raw) := by
  obtain ⟨t, f, v, i, z⟩ := m
  obtain ⟨mt, sc, al, cmf, gar⟩ := x
  cases f with
  | some p => rfl
  | none =>
    cases cmf <;> simp [fromE, env0, eval, evalS, evals, bindV, andThen, closureOf, closed, scope, lookup, fieldOf, mapTypeV, optV,
      quoted, V.inQuote, fnToks, Bind.bind, Except.bind, Pure.pure, Except.pure, bindParams] <;> kernel_rfl

theorem is_valid_fn (M k : Nat) (x : Syn.PackFieldMap) (raw : Ty) (m : Syn.MapType) (v : V) :
    eval (ctx M k i!"PackFieldMapDesc") validE
        ((i!"from_fn", v) :: (i!"ty", .ty m.ty) :: (i!"map_type", mapTypeV m) :: env0 x raw) =
      .ok (.val (.toks (fnToks (match m.isValidFn with
          | some p => .custom p
          | none => .method m.ty .isValid))),
        (i!"from_fn", v) :: (i!"ty", .ty m.ty) :: (i!"map_type", mapTypeV m) :: env0 x raw) := by
  obtain ⟨t, f, v, i, z⟩ := m
  cases v with
  | some p => rfl
  | none =>
    simp [validE, env0, eval, evalS, evals, bindV, andThen, closureOf, closed, scope, lookup, fieldOf, mapTypeV, optV,
      quoted, V.inQuote, fnToks, Bind.bind, Except.bind, Pure.pure, Except.pure, bindParams] <;> kernel_rfl

theorem into_fn (M k : Nat) (x : Syn.PackFieldMap) (raw : Ty) (m : Syn.MapType) (v w : V) :
    eval (ctx M k i!"PackFieldMapDesc") intoE
        ((i!"is_valid_fn", w) :: (i!"from_fn", v) :: (i!"ty", .ty m.ty) :: (i!"map_type", mapTypeV m) :: env0 x raw) =
      .ok (.val (.toks (fnToks (match m.intoFn with
          | some p => .custom p
          | none =>
            if m.ty = .path [.f32] ∨ m.ty = .path [.f64] then
              match x.scale with
              | some q => .scaleBack m.ty q raw
              | none => .method m.ty .intoRaw
            else .method m.ty .intoRaw))),
        (i!"is_valid_fn", w) :: (i!"from_fn", v) :: (i!"ty", .ty m.ty) :: (i!"map_type", mapTypeV m) :: env0 x raw) := by
  obtain ⟨t, f, v, i, z⟩ := m
  obtain ⟨mt, sc, al, cmf, gar⟩ := x
  have w1 : Src.word c!"f32" = .f32 := rfl
  have w2 : Src.word c!"f64" = .f64 := rfl
  have g1 : findFn 0 i!"into_token_stream" allFns = none := rfl
  have g2 : findFn 0 i!"to_string" allFns = none := rfl
  have s1 : Src.codes Word.intoRaw.text = c!"into_raw" := by kernel_rfl
  have s2 : Src.codes "ScaleBack" = c!"ScaleBack" := by kernel_rfl
  have s3 : Src.codes ("as_" ++ Rust.tyText raw) = c!"as_" ++ Src.codes (Rust.tyText raw) := by
    simp [Src.codes]
  cases i with
  | some p => rfl
  | none =>
    by_cases h1 : t = .path [.f32]
    all_goals by_cases h2 : t = .path [.f64]
    all_goals cases sc
    all_goals simp [intoE, env0, eval, evalS, evals, bindV, andThen, closureOf, closed, scope, lookup, fieldOf, mapTypeV, optV,
      quoted, V.inQuote, fnToks, Bind.bind, Except.bind, Pure.pure, Except.pure, bindParams, parseTy, V.same, w1, w2, h1, h2,
      s1, s2, s3, bindPat, matched, V.typeName, ctx, g1, g2, methodOf]

/-- The closure for `map_type` -/
def typeE : Ex :=
  .block (.let_ i!"ty" (.field (.path [i!"map_type"]) i!"ty") <| .let_ i!"from_fn" fromE <| .let_ i!"is_valid_fn" validE <|
    .let_ i!"into_fn" intoE <|
    .last (.lit [i!"MapTypeDesc"] (.cons i!"ty" (.path [i!"ty"]) (.cons i!"from_fn" (.path [i!"from_fn"]) (.cons i!"is_valid_fn" (.path [i!"is_valid_fn"]) (.cons i!"into_fn" (.path [i!"into_fn"]) (.cons i!"size_fn" (.field (.path [i!"map_type"]) i!"size_fn") .nil)))))))

theorem type_closure (M k : Nat) (x : Syn.PackFieldMap) (raw : Ty) (m : Syn.MapType) (h : x.mapType = some m) :
    (closed (eval (ctx M k i!"PackFieldMapDesc") typeE ((i!"map_type", mapTypeV m) :: env0 x raw))).map V.some =
      .ok (optV mapTypeDescV (Syn.PackFieldMapDesc.new x raw).mapType) := by
  have e : eval (ctx M k i!"PackFieldMapDesc") typeE ((i!"map_type", mapTypeV m) :: env0 x raw) =
      scope 5 (bindV (eval (ctx M k i!"PackFieldMapDesc") fromE
          ((i!"ty", .ty m.ty) :: (i!"map_type", mapTypeV m) :: env0 x raw)) fun v env =>
        bindV (eval (ctx M k i!"PackFieldMapDesc") validE ((i!"from_fn", v) :: env)) fun v env =>
        bindV (eval (ctx M k i!"PackFieldMapDesc") intoE ((i!"is_valid_fn", v) :: env)) fun v env =>
        evalS (ctx M k i!"PackFieldMapDesc") (.last (.lit [i!"MapTypeDesc"] (.cons i!"ty" (.path [i!"ty"]) (.cons i!"from_fn" (.path [i!"from_fn"]) (.cons i!"is_valid_fn" (.path [i!"is_valid_fn"]) (.cons i!"into_fn" (.path [i!"into_fn"]) (.cons i!"size_fn" (.field (.path [i!"map_type"]) i!"size_fn") .nil)))))))
          ((i!"into_fn", v) :: env)) := rfl
  rw [e, from_fn]
  simp only [bindV]
  rw [is_valid_fn]
  simp only
  rw [into_fn]
  simp only
  rw [Syn.PackFieldMapDesc.new, h]
  rfl

theorem run_new (M k : Nat) (x : Syn.PackFieldMap) (raw : Ty) :
    run M allFns (k + 1) i!"PackFieldMapDesc" i!"new" [mapV x, .ty raw] = .ok (mapDescV (Syn.PackFieldMapDesc.new x raw)) := by
  obtain ⟨mt, sc, al, cmf, gar⟩ := x
  cases mt with
  | none => cases sc <;> rfl
  | some m =>
    have e : run M allFns (k + 1) i!"PackFieldMapDesc" i!"new" [mapV ⟨some m, sc, al, cmf, gar⟩, .ty raw] =
        closed (bindV (andThen ((closed (eval (ctx M k i!"PackFieldMapDesc") typeE
            ((i!"map_type", mapTypeV m) :: env0 ⟨some m, sc, al, cmf, gar⟩ raw))).map V.some) fun w =>
          .ok (.val w, env0 ⟨some m, sc, al, cmf, gar⟩ raw)) fun v env =>
          evalS (ctx M k i!"PackFieldMapDesc") (.last (.lit [i!"Self"] (.cons i!"map_type" (.path [i!"map_type"]) (.cons i!"scale" (.field (.path [i!"x"]) i!"scale") (.cons i!"alias" (.field (.path [i!"x"]) i!"alias") (.cons i!"convert_may_fail" (.field (.path [i!"x"]) i!"convert_may_fail") (.cons i!"get_as_ref" (.field (.path [i!"x"]) i!"get_as_ref") .nil)))))))
            ((i!"map_type", v) :: env)) := by
      cases sc <;> rfl
    rw [e, type_closure M k ⟨some m, sc, al, cmf, gar⟩ raw m rfl]
    rfl

end Ublox.Meth
