import Verif.Lemmas.CodegenTop

/-!
# The generated code of enumerations and flags
-/

namespace Ublox.Rust
open Spec

variable {W E : Type} (x : Externs W E)

/-! ## Arms -/

theorem scoped_lift {α : Type} {m : Ev W E α} {env : Env W E} {r : R α} (h : m env = Ev.lift r env) :
    Ev.scoped m env = Ev.lift r env := by
  unfold Ev.scoped
  rw [h]
  cases r with
  | error p => rfl
  | ok a =>
    rw [lift_ok]
    simp only [Nat.sub_self, List.drop_zero]

/-- The first arm matches, without binding anything. -/
theorem arms_take {p : Pat} {e : Expr} {v : V W E} {arms : List Arm} {env : Env W E} {r : R (V W E)}
    (hp : matchPat x p v = .ok (some [])) (he : e.eval x env = Ev.lift r env) :
    evalArms x v (.plain p e :: arms) env = Ev.lift r env := by
  simp only [evalArms]
  rw [bind_ok (env' := env) (a := some []) (by rw [hp]; rfl)]
  exact scoped_lift (m := (pure () : Ev W E Unit) >>= fun _ => e.eval x)
    ((bind_ok (pure_run () env)).trans he)

/-- The first arm does not match. -/
theorem arms_skip {p : Pat} {e : Expr} {v : V W E} {arms : List Arm} {env : Env W E}
    (hp : matchPat x p v = .ok none) :
    evalArms x v (.plain p e :: arms) env = evalArms x v arms env := by
  simp only [evalArms]
  rw [bind_ok (env' := env) (a := none) (by rw [hp]; rfl)]

theorem eval_match {e : Expr} {v : V W E} {arms : List Arm} {env : Env W E}
    (he : e.eval x env = Ev.lift (.ok v) env) :
    (Expr.match_ e arms).eval x env = evalArms x v arms env := by
  simp only [Expr.eval]
  exact bind_ok he

theorem matchPat_nums (ns : List Nat) (b : UInt8) :
    matchPat x (.nums ns) (.byte b) =
      .ok (if ns.any (fun n => UInt8.ofNat n == b) then some [] else none) := rfl

/-! ## Enumerations -/

/-- The variants of the generated code. -/
def variantsCode (vs : List Variant) : List (String × Nat) := vs.map fun v => (v.1, v.2.toNat)

theorem evalArms_variants {name : String} {vs : List Variant} {rest : List Arm} (b : UInt8) {env : Env W E}
    (hx : ∀ v ∈ vs, x.const (name ++ "::" ++ v.1) = .ok (.val (.enum v))) :
    evalArms x (.byte b) (variantArms name (variantsCode vs) ++ rest) env =
      match vs.find? fun v => v.2 == b with
      | some v => Ev.lift (.ok (.val (.enum v))) env
      | none => evalArms x (.byte b) rest env := by
  induction vs with
  | nil => rfl
  | cons v vs ih =>
    have h1 : matchPat x (.nums [v.2.toNat]) (.byte b) = .ok (if v.2 == b then some [] else none) := by
      rw [matchPat_nums]
      simp only [List.any_cons, List.any_nil, Bool.or_false, UInt8.ofNat_toNat]
    simp only [variantsCode, variantArms, List.map_cons, List.cons_append]
    rw [List.find?_cons]
    cases hv : v.2 == b with
    | true =>
      rw [hv] at h1
      refine arms_take x h1 ?_
      rw [eval_const, hx v (.head _)]
    | false =>
      rw [hv] at h1
      rw [arms_skip x h1]
      exact ih fun w hw => hx w (.tail _ hw)

theorem contains_toNat (vs : List (String × UInt8)) {i : Nat} (hi : i < 256) :
    ((vs.map fun v => (v.1, v.2.toNat)).map (·.2)).contains i =
      (vs.map (·.2)).contains (UInt8.ofNat i) := by
  rw [List.map_map, Bool.eq_iff_iff]
  simp only [List.contains_iff_mem, List.mem_map, Function.comp_apply]
  constructor
  · rintro ⟨v, hv, h⟩
    refine ⟨v, hv, ?_⟩
    rw [← h, UInt8.ofNat_toNat]
  · rintro ⟨v, hv, h⟩
    refine ⟨v, hv, ?_⟩
    rw [h, UInt8.toNat_ofNat']
    exact Nat.mod_eq_of_lt hi

theorem enumCode_variants (e : EnumDesc) :
    (if e.rest = some .reserved then
      (e.variants.map fun v => (v.1, v.2.toNat)) ++
        ((List.range 256).filter fun i =>
          !((e.variants.map fun v => (v.1, v.2.toNat)).map (·.2)).contains i).map
        fun i => ("Reserved" ++ toString i, i)
     else e.variants.map fun v => (v.1, v.2.toNat)) = variantsCode e.allVariants := by
  unfold EnumDesc.allVariants variantsCode
  split
  · rw [List.map_append]
    congr 1
    have h1 : ((List.range 256).filter fun i =>
          !((e.variants.map fun v => (v.1, v.2.toNat)).map (·.2)).contains i) =
        (List.range 256).filter fun i => !(e.variants.map (·.2)).contains (UInt8.ofNat i) := by
      apply List.filter_congr
      intro i hi
      rw [contains_toNat _ (List.mem_range.mp hi)]
    rw [h1, List.map_map]
    apply List.map_congr_left
    intro i hi
    have hi' := List.mem_range.mp (List.mem_filter.mp hi).1
    simp only [Function.comp_apply, Prod.mk.injEq, true_and]
    rw [UInt8.toNat_ofNat']
    exact (Nat.mod_eq_of_lt hi').symm
  · rfl

theorem call_x {f : FnDecl} (h : f.params = [.x_]) {e : Expr} (hb : f.body = [.tail e]) {v : V W E}
    {r : R (V W E)} (he : e.eval x [(.x_, v)] = Ev.lift r [(.x_, v)]) : f.call x [v] = r := by
  have hlen : f.params.length = [v].length := by rw [h]; rfl
  have hbind : bindParams f.params [v] = [(.x_, v)] := by rw [h]; rfl
  simp only [FnDecl.call, FnDecl.run, hlen, ne_eq, not_true_eq_false, if_false, hbind, hb]
  rw [stmts_tail, he]
  cases r <;> rfl

theorem call_self {f : FnDecl} (h : f.params = [.self_]) {e : Expr} (hb : f.body = [.tail e]) {v : V W E}
    {r : R (V W E)} (he : e.eval x [(.self_, v)] = Ev.lift r [(.self_, v)]) : f.call x [v] = r := by
  have hlen : f.params.length = [v].length := by rw [h]; rfl
  have hbind : bindParams f.params [v] = [(.self_, v)] := by rw [h]; rfl
  simp only [FnDecl.call, FnDecl.run, hlen, ne_eq, not_true_eq_false, if_false, hbind, hb]
  rw [stmts_tail, he]
  cases r <;> rfl

theorem enumFrom_call {e : EnumDesc} (b : UInt8)
    (hx : ∀ v ∈ e.allVariants, x.const (e.name ++ "::" ++ v.1) = .ok (.val (.enum v))) :
    (enumFromCode e.name (variantsCode e.allVariants)).call x [.byte b] =
      (fun v => .val (.enum v)) <$> e.from b := by
  refine call_x x rfl rfl ?_
  rw [eval_match x (v := .byte b) (eval_var x rfl)]
  have := evalArms_variants x (rest := []) b (env := [(.x_, .byte b)]) hx
  rw [List.append_nil] at this
  rw [this]
  unfold EnumDesc.from EnumDesc.lookup
  cases e.allVariants.find? fun v => v.2 == b with
  | some v => rfl
  | none => simp only [evalArms]; rfl

theorem enumFromUnchecked_call {e : EnumDesc} (b : UInt8)
    (hx : ∀ v ∈ e.allVariants, x.const (e.name ++ "::" ++ v.1) = .ok (.val (.enum v))) :
    (enumFromUncheckedCode e.name (variantsCode e.allVariants)).call x [.byte b] =
      (fun v => .val (.enum v)) <$> e.fromUnchecked b := by
  refine call_x x rfl rfl ?_
  rw [eval_match x (v := .byte b) (eval_var x rfl)]
  rw [evalArms_variants x b (env := [(.x_, .byte b)]) hx]
  unfold EnumDesc.fromUnchecked EnumDesc.lookup
  cases e.allVariants.find? fun v => v.2 == b with
  | some v => rfl
  | none =>
    refine arms_take x (r := .error .explicit) rfl ?_
    simp only [Expr.eval]

theorem enumIsValid_call {e : EnumDesc} (b : UInt8)
    (ht : x.const "true" = .ok (.bool true)) (hf : x.const "false" = .ok (.bool false)) :
    (enumIsValidCode (variantsCode e.allVariants)).call x [.byte b] = .ok (.bool (e.isValid b)) := by
  refine call_x x rfl rfl ?_
  rw [eval_match x (v := .byte b) (eval_var x rfl)]
  have h1 : (((variantsCode e.allVariants).map (·.2)).any fun n => UInt8.ofNat n == b) = e.isValid b := by
    unfold variantsCode EnumDesc.isValid
    generalize e.allVariants = vs
    induction vs with
    | nil => rfl
    | cons v vs ih =>
      simp only [List.map_cons, List.any_cons, List.contains_cons, UInt8.ofNat_toNat, ih]
      rw [Bool.beq_comm]
  have h2 := matchPat_nums x ((variantsCode e.allVariants).map (·.2)) b
  rw [h1] at h2
  cases he : e.isValid b with
  | true =>
    rw [he] at h2
    exact arms_take x h2 (by rw [eval_const, ht])
  | false =>
    rw [he] at h2
    rw [arms_skip x h2]
    exact arms_take x rfl (by rw [eval_const, hf])

theorem enumIntoRaw_call (v : Variant) :
    enumIntoRawCode.call x [.val (.enum v)] = .ok (.byte (EnumDesc.intoRawVal v)) :=
  call_self x rfl rfl (by rw [eval_cast x .u8 (eval_var x (v := .val (.enum v)) rfl)]; rfl)

/-- The generated code of an enumeration. -/
theorem generateEnumCode_eq (e : EnumDesc) :
    generateEnumCode e =
      if e.fromFn = some .from ∧ e.rest = some .errorProne then .error "assertion failed"
      else if e.fromFn = some .fromUnchecked ∧ e.rest = some .reserved then .error "assertion failed"
      else .ok
        { name := e.name, variants := variantsCode e.allVariants
          from_ := if e.fromFn = some .from then
            some (enumFromCode e.name (variantsCode e.allVariants)) else none
          fromUnchecked := if e.fromFn = some .fromUnchecked then
            some (enumFromUncheckedCode e.name (variantsCode e.allVariants)) else none
          isValid := if e.fromFn = some .fromUnchecked then
            some (enumIsValidCode (variantsCode e.allVariants)) else none
          intoRaw := if e.intoRaw then some enumIntoRawCode else none
          serialize :=
            { head := serializeHead, name := "serialize", params := [.self_, .serializer]
              body := [.tail (.meth (.var .serializer) (.serializeNum "u8")
                [.cast (.deref (.var .self_)) .u8])] } } := by
  unfold generateEnumCode
  rw [← enumCode_variants e]
  obtain ⟨name, fromFn, rest, intoRaw, variants⟩ := e
  cases fromFn with
  | none => simp; rfl
  | some g =>
    cases g with
    | «from» =>
      by_cases h : rest = some .errorProne
      · simp [h]; rfl
      · simp [h]; rfl
    | fromUnchecked =>
      by_cases h : rest = some .reserved
      · simp [h]; rfl
      · simp [h]; rfl

/-! ## Flags -/

theorem eval_flagExpr {nbits bit : Nat} (hn : nbits = 8 ∨ nbits = 16 ∨ nbits = 32) (hb : bit < nbits)
    (env : Env W E) :
    (flagExpr (flagsRepr nbits) bit).eval x env =
      Ev.lift (rawV <$> RawVal.ofUnsigned nbits (1 <<< bit)) env := by
  have h1 : ∀ ty, (Expr.paren (.cast (.int 1) ty)).eval x env = Ev.lift (.ok (litV 1 ty)) env := by
    intro ty
    rw [eval_paren, eval_cast x ty (eval_int x 1 env)]
    rfl
  have h2 : ∀ ty, (Expr.paren (.bin .shl (.paren (.cast (.int 1) ty)) (.lit bit .u32))).eval x env =
      Ev.lift (binV x.maxUsize .shl (litV 1 ty) (litV bit .u32)) env := by
    intro ty
    rw [eval_paren, eval_bin x .shl (h1 ty) (s := .ok (litV bit .u32)) (by simp only [Expr.eval]; rfl)]
    rfl
  have h3 : ∀ n, (∀ bit < n, (UInt32.ofNat bit).toNat < n) → bit < n → (UInt32.ofNat bit).toNat < n :=
    fun n h hb => h bit hb
  unfold flagExpr
  rcases hn with rfl | rfl | rfl
  · rw [show flagsRepr 8 = .u8 from rfl]
    split
    · rw [h2]
      congr 1
      have h4 : (UInt32.ofNat bit).toNat < 8 := h3 8 (by decide) hb
      have h5 : ∀ bit < 8, (UInt8.ofNat 1 <<< (UInt32.ofNat bit).toUInt8) = UInt8.ofNat (1 <<< bit) := by
        decide
      simp only [litV, binV, h4, if_true, h5 bit hb]
      rfl
    · rename_i h0
      have : bit = 0 := by omega
      subst this
      rw [h1]
      rfl
  · rw [show flagsRepr 16 = .u16 from rfl]
    split
    · rw [h2]
      congr 1
      have h4 : (UInt32.ofNat bit).toNat < 16 := h3 16 (by decide) hb
      have h5 : ∀ bit < 16, (UInt16.ofNat 1 <<< (UInt32.ofNat bit).toUInt16) = UInt16.ofNat (1 <<< bit) := by
        decide
      simp only [litV, binV, h4, if_true, h5 bit hb]
      rfl
    · rename_i h0
      have : bit = 0 := by omega
      subst this
      rw [h1]
      rfl
  · rw [show flagsRepr 32 = .u32 from rfl]
    split
    · rw [h2]
      congr 1
      have h4 : (UInt32.ofNat bit).toNat < 32 := h3 32 (by decide) hb
      have h5 : ∀ bit < 32, (UInt32.ofNat 1 <<< UInt32.ofNat bit) = UInt32.ofNat (1 <<< bit) := by
        decide
      simp only [litV, binV, h4, if_true, h5 bit hb]
      rfl
    · rename_i h0
      have : bit = 0 := by omega
      subst this
      rw [h1]
      rfl

/-- The constants of the generated flags. -/
def itemsCode (d : FlagsDesc) : List (String × Expr) :=
  (List.range d.nbits).map fun bit =>
    match d.consts.find? fun c => c.2 == 1 <<< bit with
    | some c => (c.1, flagExpr (flagsRepr d.nbits) bit)
    | none => ("RESERVED" ++ toString bit, flagExpr (flagsRepr d.nbits) bit)

theorem generateFlagsCode_eq (d : FlagsDesc) (fromFn : Option FromFn) (rest : Option Rest) :
    generateFlagsCode d fromFn rest =
      if rest ≠ some .reserved then .error "Only reserved supported"
      else if d.accepted = false then .error "Strange flags, not power of 2?"
      else if fromFn = some .fromUnchecked then .error "not implemented"
      else .ok
        { name := d.name, repr := flagsRepr d.nbits, items := itemsCode d
          from_ := if fromFn = some .from then some
            { head := "const fn from(x: " ++ (flagsRepr d.nbits).text ++ ") -> Self", name := "from"
              params := [.x_]
              body := [.tail (.call (.user "Self::from_bits_truncate") [.var .x_])] } else none
          intoRaw := if d.intoRaw then some
             { head := "const fn into_raw(self) -> " ++ (flagsRepr d.nbits).text, name := "into_raw"
               params := [.self_], body := [.tail (.meth (.var .self_) (.user "bits") [])] } else none
          serialize :=
             { head := serializeHead, name := "serialize", params := [.self_, .serializer]
               body := [.tail (.meth (.var .serializer) (.serializeNum (flagsRepr d.nbits).text)
                 [.meth (.var .self_) (.user "bits") []])] } } := by
  unfold generateFlagsCode
  by_cases h1 : rest = some .reserved
  · have hacc : d.accepted = false ↔ ((List.range d.nbits).filter fun bit =>
        d.consts.any fun c => c.2 == 1 <<< bit).length ≠ d.consts.length := by
      unfold FlagsDesc.accepted
      simp
    by_cases h2 : d.accepted = false
    · have h3 := hacc.mp h2
      simp only [h1, h2, ne_eq, not_true_eq_false, if_false, if_true]
      rw [if_pos h3]
      rfl
    · have h3 := fun h => h2 (hacc.mpr h)
      simp only [h1, h2, ne_eq, not_true_eq_false, if_false, if_true]
      rw [if_neg h3]
      cases fromFn with
      | none => rfl
      | some f => cases f <;> rfl
  · simp only [ne_eq, h1, not_false_eq_true, if_true]
    rfl

theorem itemsCode_values (d : FlagsDesc) (hn : d.nbits = 8 ∨ d.nbits = 16 ∨ d.nbits = 32) :
    FlagValues x d.nbits (itemsCode d) (d.items.map (·.2)) := by
  unfold FlagValues itemsCode FlagsDesc.items
  rw [List.map_map]
  have : ∀ bits : List Nat, (∀ b ∈ bits, b < d.nbits) → List.Forall₂ (fun i n => ∃ r : RawVal,
      ConstDecl.eval x ⟨"", i.1, i.2⟩ = .ok (rawV r) ∧ r.unsigned? d.nbits = some n)
      (bits.map fun bit =>
        match d.consts.find? fun c => c.2 == 1 <<< bit with
        | some c => (c.1, flagExpr (flagsRepr d.nbits) bit)
        | none => ("RESERVED" ++ toString bit, flagExpr (flagsRepr d.nbits) bit))
      (bits.map ((fun c : String × Nat => c.2) ∘ fun bit =>
        match d.consts.find? fun c => c.2 == 1 <<< bit with
        | some c => (c.1, 1 <<< bit)
        | none => ("RESERVED" ++ toString bit, 1 <<< bit))) := by
    intro bits hbits
    induction bits with
    | nil => exact .nil
    | cons bit bits ih =>
      simp only [List.map_cons]
      refine .cons ?_ (ih fun b hb => hbits b (.tail _ hb))
      have hbit := hbits bit (.head _)
      have h1 := eval_flagExpr x hn hbit []
      have h2 : ∃ r, RawVal.ofUnsigned d.nbits (1 <<< bit) = .ok r ∧
          r.unsigned? d.nbits = some (1 <<< bit) := by
        have hpow : 1 <<< bit < 2 ^ d.nbits := by
          rw [Nat.one_shiftLeft]
          exact Nat.pow_lt_pow_right (by decide) hbit
        rcases hn with h | h | h <;> rw [h] at hpow ⊢
        · exact ⟨_, rfl, congrArg some ((UInt8.toNat_ofNat' ..).trans (Nat.mod_eq_of_lt hpow))⟩
        · exact ⟨_, rfl, congrArg some ((UInt16.toNat_ofNat' ..).trans (Nat.mod_eq_of_lt hpow))⟩
        · exact ⟨_, rfl, congrArg some ((UInt32.toNat_ofNat' ..).trans (Nat.mod_eq_of_lt hpow))⟩
      obtain ⟨r, hr, hu⟩ := h2
      rw [hr] at h1
      refine ⟨r, ?_, ?_⟩
      · unfold ConstDecl.eval
        cases d.consts.find? fun c => c.2 == 1 <<< bit <;> dsimp only <;> rw [h1] <;> rfl
      · rw [hu]
        simp only [Function.comp_apply]
        split <;> rfl
  exact this _ fun b hb => List.mem_range.mp hb

theorem serialize_call {f : FnDecl} (h : f.params = [.self_, .serializer]) {ty : String} {e : Expr}
    (hb : f.body = [.tail (.meth (.var .serializer) (.serializeNum ty) [e])]) {v : V W E}
    {name : String} {es : List (String × V W E)} {r : R RawVal}
    (he : e.eval x [(.serializer, .entries name es), (.self_, v)] =
      Ev.lift (rawV <$> r) [(.serializer, .entries name es), (.self_, v)]) :
    f.call x [v, .entries name es] = serializedV name es <$> r := by
  have hlen : f.params.length = [v, .entries name es].length := by rw [h]; rfl
  have hbind : bindParams f.params [v, .entries name es] =
    [(.serializer, .entries name es), (.self_, v)] := by rw [h]; rfl
  simp only [FnDecl.call, FnDecl.run, hlen, ne_eq, not_true_eq_false, if_false, hbind, hb]
  rw [stmts_tail]
  simp only [Expr.eval, evalExprs]
  rw [bind_ok (env' := [(.serializer, .entries name es), (.self_, v)]) (a := .entries name es) rfl]
  cases r with
  | error p => rw [bind_error (p := p) (bind_error he)]; rfl
  | ok r =>
    rw [bind_ok (env' := [(.serializer, .entries name es), (.self_, v)]) (a := [rawV r])
      ((bind_ok he).trans rfl)]
    rfl

end Ublox.Rust
