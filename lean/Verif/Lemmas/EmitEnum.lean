import Verif.Lemmas.EmitParse

/-!
# `generate_code_to_extend_enum`
-/

namespace Ublox.Quote

open Code (Tk Name)
open Emit

set_option maxRecDepth 10000

/-- A variant as the generator sees it -/
def variantV (v : String × Nat) : V := .pair (.ident (Src.codes v.1)) (.num v.2 i!"u8")

/-- The variables before `repr_ty` -/
def enumSt (w : EnumV) (vs : List V) : Env :=
  [(i!"attrs", .list (w.attrs.map .toks)), (i!"variants", .list vs), (i!"name", .ident w.name), (i!"ubx_enum", .enum w)]

/-- The variant for an undefined number -/
def reservedOf (i : Nat) : String × Nat := ("Reserved" ++ toString i, i)

theorem member_nums (ns : List Nat) (i : Nat) (s t : Name) :
    member (.num i s) (ns.map fun n => .num n t) = .ok (ns.contains i) := by
  induction ns with
  | nil => rfl
  | cons n ns ih =>
    rw [List.map_cons, member, V.same, ih]
    by_cases h : n = i
    · simp [h, bind, Except.bind, pure, Except.pure]
    · have : ¬ i = n := fun h' => h h'.symm
      simp [h, this, bind, Except.bind]

theorem reserved_round {k : Nat} {w : EnumV} {ns : List Nat} {i : Nat} {vs : List V} :
    ∃ v, forBody (.name i!"i") (fun env => evalS (callsOf Gen.outputRs_fns k) Gen.generate_code_to_extend_enum_loop4 env) (.num i i!"u8")
      ((i!"defined", .list (ns.map fun n => .num n i!"u8")) :: enumSt w vs) =
      .ok (.val v, (i!"defined", .list (ns.map fun n => .num n i!"u8")) ::
        enumSt w (if ns.contains i then vs else vs ++ [variantV (reservedOf i)])) := by
  have hc : ∀ env : Env, lookup i!"defined" env = .ok (.list (ns.map fun n => .num n i!"u8")) →
      lookup i!"i" env = .ok (.num i i!"u8") →
      eval (callsOf Gen.outputRs_fns k) (.not (.meth (.path [i!"defined"]) i!"contains" (.cons (.path [i!"i"]) .nil))) env =
        .ok (.val (.bool !ns.contains i), env) := by
    intro env h₁ h₂
    simp [eval, h₁, h₂, andThen, bindV, changes, evals, methodOf, member_nums, Except.map]
  rw [forBody, bindPat]
  by_cases h : ns.contains i
  · rw [if_pos h]
    refine ⟨.unit, scope_eq (env₁ := (i!"i", .num i i!"u8") :: (i!"defined", .list (ns.map fun n => .num n i!"u8")) :: enumSt w vs) ?_ rfl⟩
    unfold Gen.generate_code_to_extend_enum_loop4
    rw [evalS]
    exact eval_ite_false (hc _ rfl rfl) (by rw [h]; rfl) rfl (by simp)
  · rw [if_neg h]
    refine ⟨.unit, scope_eq (env₁ := (i!"i", .num i i!"u8") :: (i!"defined", .list (ns.map fun n => .num n i!"u8")) ::
      enumSt w (vs ++ [variantV (reservedOf i)])) ?_ rfl⟩
    unfold Gen.generate_code_to_extend_enum_loop4
    rw [evalS]
    refine eval_ite_true (hc _ rfl rfl) (by simpa using h) ?_ rfl (env₁ := (i!"name", .ident (Src.codes ("Reserved" ++ toString i))) ::
      (i!"i", .num i i!"u8") :: (i!"defined", .list (ns.map fun n => .num n i!"u8")) ::
      enumSt w (vs ++ [variantV (reservedOf i)]))
    refine step_name (v := .ident (Src.codes ("Reserved" ++ toString i))) (env' := (i!"i", .num i i!"u8") ::
      (i!"defined", .list (ns.map fun n => .num n i!"u8")) :: enumSt w vs) ?_ ?_
    · rw [codes_append]
      simp [eval, lookup, andThen, bindV, V.chars, codesLit]
    · kernel_rfl

theorem reserved_loop {k : Nat} {w : EnumV} {ns : List Nat} (l : List Nat) (vs : List V) :
    loop (forBody (.name i!"i") fun env => evalS (callsOf Gen.outputRs_fns k) Gen.generate_code_to_extend_enum_loop4 env) (l.map fun i => .num i i!"u8")
      ((i!"defined", .list (ns.map fun n => .num n i!"u8")) :: enumSt w vs) =
      .ok (.val .unit, (i!"defined", .list (ns.map fun n => .num n i!"u8")) ::
        enumSt w (vs ++ ((l.filter fun i => !ns.contains i).map reservedOf).map variantV)) := by
  rw [loop_fold (g := fun i => .num i i!"u8")
    (st := fun vs => (i!"defined", .list (ns.map fun n => .num n i!"u8")) :: enumSt w vs)
    (step := fun vs i => if ns.contains i then vs else vs ++ [variantV (reservedOf i)])
    (fun i _ vs => reserved_round) vs]
  congr 5
  induction l generalizing vs with
  | nil => simp
  | cons i l ih =>
    rw [List.foldl_cons, ih]
    by_cases h : ns.contains i
    · rw [if_pos h, List.filter_cons_of_neg (by rw [h]; decide)]
    · rw [if_neg h, List.filter_cons_of_pos (by simpa using h)]
      simp

theorem mapValues_pure {α : Type} {f : V → Res} {g h : α → V} {env : α → Env} {l : List α}
    (hf : ∀ a, f (g a) = .ok (.val (h a), env a)) : mapValues f (l.map g) = .ok (l.map h) := by
  induction l with
  | nil => rfl
  | cons a l ih => rw [List.map_cons, mapValues, hf, ih]; rfl

/-- The variants with the reserved ones -/
def fullVariants (e : EnumDesc) : List (String × Nat) :=
  if e.rest = some .reserved then
    e.variants.map (fun v => (v.1, v.2.toNat)) ++
      ((List.range 256).filter fun i => !((e.variants.map fun v => (v.1, v.2.toNat)).map (·.2)).contains i).map reservedOf
  else e.variants.map fun v => (v.1, v.2.toNat)

theorem enum_reserved {k : Nat} {attrs : List (List Tk)} {e : EnumDesc} :
    eval (callsOf Gen.outputRs_fns k) (.ifLet (.ctor1 [i!"Some"] (.ctor0 [i!"UbxEnumRestHandling", i!"Reserved"])) (.field (.path [i!"ubx_enum"]) i!"rest_handling")
      (.let_ (.name i!"defined") (.meth (.methFn (.meth (.field (.path [i!"ubx_enum"]) i!"variants") i!"iter" .nil) i!"map" .nil [i!"x"] (.field (.path [i!"x"]) 49)) i!"collect" .nil) <|
      .last (.for_ (.name i!"i") (.rangeIncl (.num 0 0) (.call [i!"u8", i!"max_value"] .nil)) Gen.generate_code_to_extend_enum_loop4)) .nil)
      (enumSt (enumV attrs e) (e.variants.map fun v => variantV (v.1, v.2.toNat))) =
    .ok (.val .unit, enumSt (enumV attrs e) ((fullVariants e).map variantV)) := by
  have hfull : fullVariants e = if e.rest = some .reserved then
    e.variants.map (fun v => (v.1, v.2.toNat)) ++
      ((List.range 256).filter fun i => !((e.variants.map fun v => (v.1, v.2.toNat)).map (·.2)).contains i).map reservedOf
    else e.variants.map fun v => (v.1, v.2.toNat) := rfl
  generalize fullVariants e = full at *
  obtain ⟨nm, ff, rest, ir, vs⟩ := e
  rcases rest with _ | ⟨_ | _⟩
  case some.reserved =>
    rw [if_pos rfl] at hfull
    simp only at hfull
    have hl := reserved_loop (k := k) (w := enumV attrs ⟨nm, ff, some .reserved, ir, vs⟩) (ns := vs.map fun v => v.2.toNat) (List.range 256)
      (vs.map fun v => variantV (v.1, v.2.toNat))
    rw [hfull, List.map_append, List.map_map]
    simp only [List.map_map, Function.comp_def] at hl ⊢
    refine eval_ifLet_some (v := .some (restV .reserved)) (bs := []) rfl rfl ?_ (env₁ := (i!"defined", .list (vs.map fun v => .num v.2.toNat i!"u8")) ::
      enumSt (enumV attrs ⟨nm, ff, some .reserved, ir, vs⟩) (vs.map (fun v => variantV (v.1, v.2.toNat)) ++ _)) rfl
    refine step_name (v := .list (vs.map fun v => .num v.2.toNat i!"u8")) (env' := enumSt (enumV attrs ⟨nm, ff, some .reserved, ir, vs⟩)
      (vs.map fun v => variantV (v.1, v.2.toNat))) ?_ ?_
    · have hm : mapValues (fun a => eval (callsOf Gen.outputRs_fns k) (.field (.path [i!"x"]) 49) ((i!"x", a) ::
          enumSt (enumV attrs ⟨nm, ff, some .reserved, ir, vs⟩) (vs.map fun v => variantV (v.1, v.2.toNat))))
          (vs.map fun v => variantV (v.1, v.2.toNat)) = .ok (vs.map fun v => .num v.2.toNat i!"u8") :=
        mapValues_pure fun v => rfl
      have hi : eval (callsOf Gen.outputRs_fns k) (.meth (.field (.path [i!"ubx_enum"]) i!"variants") i!"iter" .nil)
          (enumSt (enumV attrs ⟨nm, ff, some .reserved, ir, vs⟩) (vs.map fun v => variantV (v.1, v.2.toNat))) =
          .ok (.val (.list (vs.map fun v => variantV (v.1, v.2.toNat))),
            enumSt (enumV attrs ⟨nm, ff, some .reserved, ir, vs⟩) (vs.map fun v => variantV (v.1, v.2.toNat))) := by
        have : (enumV attrs ⟨nm, ff, some .reserved, ir, vs⟩).variants.map (fun v => V.pair (.ident v.1) (.num v.2 i!"u8")) =
            vs.map fun v => variantV (v.1, v.2.toNat) := by
          simp only [enumV, List.map_map]
          rfl
        rw [← this]
        rfl
      rw [eval, if_neg (by decide), List.nil_append, eval_map hi hm]
      · rfl
      · intro x h
        cases h
    · rw [evalS, eval]
      exact hl
  all_goals
    rw [if_neg (by simp)] at hfull
    simp only at hfull
    rw [hfull, List.map_map]
    exact eval_ifLet_none rfl rfl rfl rfl

/-- A loop that pushes something each round -/
theorem loop_rounds {α : Type} {body : V → Env → Res} {st : List V → Env} {g : α → V} {t : α → List Tk} {l : List α}
    (h : ∀ a ∈ l, ∀ ws, ∃ v ns, body (g a) (st ws) = .ok (.val v, st (ws ++ [.toks ns])) ∧ flatAll ns = t a) :
    ∀ {ws : List V} {ts : List (List Tk)}, Rounds ws ts →
      ∃ ws', loop body (l.map g) (st ws) = .ok (.val .unit, st ws') ∧ Rounds ws' (ts ++ l.map t) := by
  induction l with
  | nil => exact fun hw => ⟨_, rfl, by simpa using hw⟩
  | cons a l ih =>
    intro ws ts hw
    obtain ⟨v, ns, hb, hn⟩ := h a (by simp) ws
    obtain ⟨ws', hl, hr⟩ := ih (fun b hb => h b (List.mem_cons_of_mem _ hb)) (hw.snoc (ns := ns) rfl)
    refine ⟨ws', ?_, by simpa [hn] using hr⟩
    rw [List.map_cons, loop, hb]
    exact hl

theorem exists_push {r : Res} {v : V} {ns : List Node} {env : List Node → Env} {ts : List Tk}
    (h : r = .ok (.val v, env ns)) (ht : flatAll ns = ts) : ∃ v ns, r = .ok (.val v, env ns) ∧ flatAll ns = ts :=
  ⟨v, ns, h, ht⟩

/-- The variables after `repr_ty` -/
def enumSt2 (w : EnumV) (vs : List V) : Env := (i!"repr_ty", .ty (.path [.u8])) :: enumSt w vs

/-- An arm from a number to a variant -/
def branchToks (n : List Nat) (v : String × Nat) : List Tk :=
  .tnum v.2 i!"u8" :: (t!"=>" ++ .id n :: (t!"::" ++ [.id (Src.codes v.1)]))

theorem branch_loop3 {k : Nat} {w : EnumV} {vs : List V} (l : List (String × Nat)) :
    ∃ ws, loop (forBody (.pair (.name i!"id") (.name i!"val")) fun env =>
        evalS (callsOf Gen.outputRs_fns k) Gen.generate_code_to_extend_enum_loop3 env) (l.map variantV)
        ((i!"match_branches", .list []) :: enumSt2 w vs) = .ok (.val .unit, (i!"match_branches", .list ws) :: enumSt2 w vs) ∧
      Rounds ws (l.map (branchToks w.name)) := by
  refine loop_rounds (st := fun ws => (i!"match_branches", .list ws) :: enumSt2 w vs) ?_ .nil
  intro v _ ws
  refine ⟨.unit, [.tks [.tnum v.2 i!"u8"], .tks t!"=>", .tks [.id w.name], .tks t!"::", .tks [.id (Src.codes v.1)]], ?_, ?_⟩
  · kernel_rfl
  · simp [flatAll, Node.flat, branchToks]

theorem branch_loop2 {k : Nat} {w : EnumV} {vs : List V} (l : List (String × Nat)) :
    ∃ ws, loop (forBody (.pair (.name i!"id") (.name i!"val")) fun env =>
        evalS (callsOf Gen.outputRs_fns k) Gen.generate_code_to_extend_enum_loop2 env) (l.map variantV)
        ((i!"match_branches", .list []) :: enumSt2 w vs) = .ok (.val .unit, (i!"match_branches", .list ws) :: enumSt2 w vs) ∧
      Rounds ws (l.map (branchToks w.name)) := branch_loop3 l

/-- A variant with its number -/
def enumVariantToks (v : String × Nat) : List Tk := ident v.1 ++ t!"=" ++ [.tnum v.2 i!"u8"]

theorem variant_loop {k : Nat} {w : EnumV} {vs : List V} {a b : V} (l : List (String × Nat)) :
    ∃ ws, loop (forBody (.pair (.name i!"id") (.name i!"val")) fun env =>
        evalS (callsOf Gen.outputRs_fns k) Gen.generate_code_to_extend_enum_loop0 env) (l.map variantV)
        ((i!"enum_variants", .list []) :: (i!"to_code", a) :: (i!"from_code", b) :: enumSt2 w vs) =
          .ok (.val .unit, (i!"enum_variants", .list ws) :: (i!"to_code", a) :: (i!"from_code", b) :: enumSt2 w vs) ∧
      Rounds ws (l.map enumVariantToks) := by
  refine loop_rounds (st := fun ws => (i!"enum_variants", .list ws) :: (i!"to_code", a) :: (i!"from_code", b) :: enumSt2 w vs) ?_ .nil
  intro v _ ws
  refine ⟨.unit, [.tks [.id (Src.codes v.1)], .tks t!"=", .tks [.tnum v.2 i!"u8"]], ?_, ?_⟩
  · kernel_rfl
  · simp [flatAll, Node.flat, enumVariantToks, ident]

/-- The variables in the loop over the values -/
def valuesSt (w : EnumV) (vs : List V) (bs ws : List V) : Env :=
  (i!"values", .list ws) :: (i!"match_branches", .list bs) :: enumSt2 w vs

theorem values_later {k : Nat} {w : EnumV} {vs bs : List V} (l : List (String × Nat)) :
    ∀ (j : Nat) {ws : List V} {ts : List (List Tk)}, Rounds ws ts →
    ∃ ws', loop (forBody (.pair (.name i!"i") (.pair .wild (.name i!"val"))) fun env =>
        evalS (callsOf Gen.outputRs_fns k) Gen.generate_code_to_extend_enum_loop1 env) (enumerate (j + 1) (l.map variantV))
        (valuesSt w vs bs ws) = .ok (.val .unit, valuesSt w vs bs ws') ∧
      Rounds ws' (ts ++ l.map fun v => t!"|" ++ [.tnum v.2 i!"u8"]) := by
  induction l with
  | nil => exact fun j ws ts h => ⟨_, rfl, by simpa using h⟩
  | cons v l ih =>
    intro j ws ts h
    obtain ⟨ws', hl, hr⟩ := ih (j + 1) (h.snoc (ns := [.tks t!"|", .tks [.tnum v.2 i!"u8"]]) rfl)
    refine ⟨ws', ?_, by simpa [flatAll, Node.flat] using hr⟩
    rw [List.map_cons, enumerate, loop]
    have : forBody (.pair (.name i!"i") (.pair .wild (.name i!"val"))) (fun env =>
        evalS (callsOf Gen.outputRs_fns k) Gen.generate_code_to_extend_enum_loop1 env) (.pair (usizeV (j + 1)) (variantV v))
        (valuesSt w vs bs ws) = .ok (.val .unit, valuesSt w vs bs (ws ++ [.toks [.tks t!"|", .tks [.tnum v.2 i!"u8"]]])) := by
      kernel_rfl
    rw [this]
    exact hl

theorem join_bars (a : List Tk) (l : List (List Tk)) : joinToks t!"|" (a :: l) = a ++ (l.map fun b => t!"|" ++ b).flatten := by
  induction l generalizing a with
  | nil => simp [joinToks]
  | cons b l ih => rw [joinToks, ih]; simp

theorem values_loop {k : Nat} {w : EnumV} {vs bs : List V} (l : List (String × Nat)) :
    ∃ ws ts, loop (forBody (.pair (.name i!"i") (.pair .wild (.name i!"val"))) fun env =>
        evalS (callsOf Gen.outputRs_fns k) Gen.generate_code_to_extend_enum_loop1 env) (enumerate 0 (l.map variantV))
        (valuesSt w vs bs []) = .ok (.val .unit, valuesSt w vs bs ws) ∧
      Rounds ws ts ∧ ts.flatten = joinToks t!"|" (l.map fun v => [.tnum v.2 i!"u8"]) := by
  cases l with
  | nil => exact ⟨[], [], rfl, .nil, rfl⟩
  | cons v l =>
    obtain ⟨ws', hl, hr⟩ := values_later (k := k) (w := w) (vs := vs) (bs := bs) l 0
      (Rounds.nil.snoc (ns := [.tks [.tnum v.2 i!"u8"]]) rfl)
    refine ⟨ws', _, ?_, hr, ?_⟩
    · rw [List.map_cons, enumerate, loop]
      have : forBody (.pair (.name i!"i") (.pair .wild (.name i!"val"))) (fun env =>
          evalS (callsOf Gen.outputRs_fns k) Gen.generate_code_to_extend_enum_loop1 env) (.pair (usizeV 0) (variantV v))
          (valuesSt w vs bs []) = .ok (.val .unit, valuesSt w vs bs [.toks [.tks [.tnum v.2 i!"u8"]]]) := by
        kernel_rfl
      rw [this]
      exact hl
    · rw [List.map_cons, join_bars]
      simp [flatAll, Node.flat, Function.comp_def]

theorem eval_first {c : Ctx} {env bs : Env} {v : V} {a e₁ : Ex} {p₁ : Pt} {as : Ams} {res : Res}
    (ha : eval c a env = .ok (.val v, env)) (h₁ : bindPat p₁ v = some bs) (ht : scope env.length (eval c e₁ (bs ++ env)) = res) :
    eval c (.match_ a (.cons p₁ e₁ as)) env = res := by
  rw [eval, ha]
  simp only [bindV]
  rw [evalA, h₁]
  exact ht

theorem reserved_names : ∀ i < 256, IsName ("Reserved" ++ toString i) := by decide +kernel

theorem full_names {e : EnumDesc} (he : EnumOk e) : ∀ v ∈ fullVariants e, IsName v.1 := by
  obtain ⟨-, -, hv⟩ := he
  intro v hm
  rw [fullVariants] at hm
  split at hm
  · rcases List.mem_append.1 hm with hm | hm
    · obtain ⟨u, hu, rfl⟩ := List.mem_map.1 hm
      exact hv u hu
    · obtain ⟨i, hi, rfl⟩ := List.mem_map.1 hm
      exact reserved_names i (List.mem_range.1 (List.mem_filter.1 hi).1)
  · obtain ⟨u, hu, rfl⟩ := List.mem_map.1 hm
    exact hv u hu

theorem full_ne {e : EnumDesc} (he : EnumOk e) : fullVariants e ≠ [] := by
  rw [fullVariants]
  split <;> simp [he.2.1]

theorem generate_enum (e : EnumDesc) : Rust.generateEnumCode e =
    let code : Rust.EnumCode :=
      { name := e.name, variants := fullVariants e, from_ := none, fromUnchecked := none, isValid := none
        intoRaw := if e.intoRaw then some Rust.enumIntoRawCode else none
        serialize :=
          { head := Rust.serializeHead, name := "serialize", params := [.self_, .serializer]
            body := [.tail (.meth (.var .serializer) (.serializeNum "u8")
              [.cast (.deref (.var .self_)) .u8])] } }
    match e.fromFn with
    | some .from =>
      if e.rest = some .errorProne then .error "assertion failed"
      else .ok { code with from_ := some (Rust.enumFromCode e.name (fullVariants e)) }
    | some .fromUnchecked =>
      if e.rest = some .reserved then .error "assertion failed"
      else .ok { code with
        fromUnchecked := some (Rust.enumFromUncheckedCode e.name (fullVariants e))
        isValid := some (Rust.enumIsValidCode (fullVariants e)) }
    | none => .ok code := by
  rw [Rust.generateEnumCode]
  simp only
  rw [show (if e.rest = some .reserved then
      e.variants.map (fun v => (v.1, v.2.toNat)) ++ ((List.range 256).filter fun i =>
        !((e.variants.map fun v => (v.1, v.2.toNat)).map (·.2)).contains i).map fun i => ("Reserved" ++ toString i, i)
    else e.variants.map fun v => (v.1, v.2.toNat)) = fullVariants e from rfl]
  rcases e.fromFn with _ | ⟨_ | _⟩
  · rfl
  · simp only
    split <;> rfl
  · simp only
    split <;> rfl

end Ublox.Quote
