import Verif.Lemmas.EmitEnum2

/-!
# `generate_code_to_extend_bitflags`
-/

namespace Ublox.Quote

open Code (Tk Name)
open Emit

set_option maxRecDepth 10000

/-- The variables of the loop -/
def flagsSt (w : FlagsV) (ks is : List V) : Env :=
  [(i!"repr_ty", .ident w.repr), (i!"items", .list is), (i!"known_flags", .list ks), (i!"bitflags", .flags w)]

/-- One round -/
def flagsRound (k : Nat) : V → Env → Res :=
  forBody (.name i!"bit") fun env => evalS (callsOf Gen.outputRs_fns k) Gen.generate_code_to_extend_bitflags_loop0 env

theorem firstTrue_find {α : Type} (g : α → V) (p : α → Bool) (l : List α) :
    firstTrue (l.map g) (l.map fun a => .bool (p a)) = .ok (optV ((l.find? p).map g)) := by
  induction l with
  | nil => rfl
  | cons a l ih =>
    rw [List.map_cons, List.map_cons, firstTrue, ih, List.find?_cons]
    cases p a <;> simp [optV]

/-- `.iter().find(|x| x.value == flag_bit)` -/
theorem eval_find {c : Ctx} {env : Env} {w : FlagsV} {n : Nat} {t : Name} (hw : lookup i!"bitflags" env = .ok (.flags w))
    (hn : lookup i!"flag_bit" env = .ok (.num n t)) :
    eval c (.methFn (.meth (.field (.path [i!"bitflags"]) i!"consts") i!"iter" .nil) i!"find" .nil [i!"x"]
      (.bin .eq (.field (.path [i!"x"]) i!"value") (.path [i!"flag_bit"]))) env =
    .ok (.val (optV ((w.consts.find? fun c => c.value == n).map .flagConst)), env) := by
  have hm : mapValues (fun a => eval c (.bin .eq (.field (.path [i!"x"]) i!"value") (.path [i!"flag_bit"])) ((i!"x", a) :: env))
      (w.consts.map .flagConst) = .ok (w.consts.map fun c => .bool (c.value == n)) := by
    refine mapValues_pure (env := fun a => (i!"x", .flagConst a) :: env) fun a => ?_
    simp [eval, lookup, hn, andThen, bindV, fieldOf, binOp, V.same, Except.map]
  have he : eval c (.meth (.field (.path [i!"bitflags"]) i!"consts") i!"iter" .nil) env =
      .ok (.val (.list (w.consts.map .flagConst)), env) := by
    simp [eval, hw, andThen, bindV, fieldOf, changes, evals, methodOf]
  rw [eval, he]
  simp only [bindV, evals, bindParams, List.cons_append, List.nil_append, closureOf, hm]
  simp [bind, Except.bind, firstTrue_find, andThen]

theorem eval_shl {c : Ctx} {env : Env} {bit : Nat} (hb : bit < 64) (h : lookup i!"bit" env = .ok (.num bit i!"u32")) :
    eval c (.meth (.meth (.num 1 i!"u64") i!"checked_shl" (.cons (.path [i!"bit"]) .nil)) i!"unwrap" .nil) env =
    .ok (.val (.num (1 <<< bit) i!"u64"), env) := by
  simp [eval, h, andThen, bindV, changes, evals, methodOf, hb]

/-- The tokens of a constant -/
def itemToks (w : FlagsV) (attrs : List (List Node)) (n : List Nat) (bit : Nat) : List Tk :=
  (attrs.map flatAll).flatten ++ t!"const" ++ .id n :: (if bit ≠ 0 then t!"= ((1 as" ++ .id w.repr :: (t!") <<" ++ .tnum bit i!"u32" :: t!")")
    else t!"= (1 as" ++ .id w.repr :: t!")")

theorem eval_insert {c : Ctx} {env env₁ : Env} {ks : List V} {n : Nat} {t : Name}
    (hk : lookup i!"known_flags" env = .ok (.list ks)) (hn : lookup i!"flag_bit" env = .ok (.num n t))
    (hm : member (.num n t) ks = .ok false) (ha : assign i!"known_flags" (.list (ks ++ [.num n t])) env = .ok env₁) :
    eval c (.meth (.path [i!"known_flags"]) i!"insert" (.cons (.path [i!"flag_bit"]) .nil)) env = .ok (.val .unit, env₁) := by
  have hl : eval c (.path [i!"flag_bit"]) env = .ok (.val (.num n t), env) := by
    simp [eval, hn, andThen]
  rw [eval, if_pos (by decide)]
  simp [evals, hl, bindV, hk, andThen, changeOf, hm, bind, Except.bind, pure, Except.pure, ha]

theorem eval_bit {c : Ctx} {env : Env} {bit : Nat} (h : lookup i!"bit" env = .ok (.num bit i!"u32")) :
    eval c (.bin .ne (.path [i!"bit"]) (.num 0 0)) env = .ok (.val (.bool (!(bit == 0))), env) := by
  simp [eval, h, andThen, bindV, binOp, V.same, Except.map]

theorem exists_item {r : Res} {w : FlagsV} {ks is : List V} {v : V} {ns : List Node} {ts : List Tk}
    (h : r = .ok (.val v, flagsSt w ks (is ++ [.toks ns]))) (ht : flatAll ns = ts) :
    ∃ v ns, r = .ok (.val v, flagsSt w ks (is ++ [.toks ns])) ∧ flatAll ns = ts := ⟨v, ns, h, ht⟩

theorem attrs_flat (attrs : List (List Node)) :
    joinToks [] (flatRounds (attrs.map ((fun v => [v.node]) ∘ V.toks))) = (attrs.map flatAll).flatten := by
  rw [← List.map_map, flatRounds_toks, joinToks_nil]

/-- A declared constant -/
theorem flags_known {k bit : Nat} {w : FlagsV} {ks is : List V} {item : ConstV} (hb : bit < 64)
    (hf : w.consts.find? (fun c => c.value == 1 <<< bit) = some item)
    (hk : member (.num (1 <<< bit) i!"u64") ks = .ok false) :
    ∃ v ns, flagsRound k (.num bit i!"u32") (flagsSt w ks is) =
      .ok (.val v, flagsSt w (ks ++ [.num (1 <<< bit) i!"u64"]) (is ++ [.toks ns])) ∧
      flatAll ns = itemToks w item.attrs item.name bit := by
  have hfind : ∀ (env : Env), lookup i!"bitflags" env = .ok (.flags w) → lookup i!"flag_bit" env = .ok (.num (1 <<< bit) i!"u64") →
      eval (callsOf Gen.outputRs_fns k) (.methFn (.meth (.field (.path [i!"bitflags"]) i!"consts") i!"iter" .nil) i!"find" .nil [i!"x"]
      (.bin .eq (.field (.path [i!"x"]) i!"value") (.path [i!"flag_bit"]))) env =
      .ok (.val (.some (.flagConst item)), env) := by
    intro env h₁ h₂
    rw [eval_find h₁ h₂, hf]
    rfl
  rw [flagsRound, forBody, bindPat]
  simp only
  have hs := eval_shl (c := callsOf Gen.outputRs_fns k) (env := (i!"bit", .num bit i!"u32") :: flagsSt w ks is) hb rfl
  generalize 1 <<< bit = fb at *
  by_cases h0 : bit = 0
  · apply exists_item
    · apply scope_eq
      · unfold Gen.generate_code_to_extend_bitflags_loop0
        apply step_name
        · exact hs
        rw [evalS]
        apply eval_ifLet_some
        · exact hfind _ rfl rfl
        · exact rfl
        · apply step_semi
          · exact eval_insert rfl rfl hk rfl
          apply step_name
          · knf
          apply step_name
          · knf
          rw [evalS]
          apply eval_ite_false
          · exact eval_bit rfl
          · rw [h0]; rfl
          · knf
          · exact rfl
        · exact rfl
      · exact rfl
    · simp [flatAll, Node.flat, itemToks, h0, attrs_flat]
  · apply exists_item
    · apply scope_eq
      · unfold Gen.generate_code_to_extend_bitflags_loop0
        apply step_name
        · exact hs
        rw [evalS]
        apply eval_ifLet_some
        · exact hfind _ rfl rfl
        · exact rfl
        · apply step_semi
          · exact eval_insert rfl rfl hk rfl
          apply step_name
          · knf
          apply step_name
          · knf
          rw [evalS]
          apply eval_ite_true
          · exact eval_bit rfl
          · simpa using h0
          · knf
          · exact rfl
        · exact rfl
      · exact rfl
    · simp [flatAll, Node.flat, itemToks, h0, attrs_flat]

/-- A bit without a constant -/
theorem flags_unknown {k bit : Nat} {w : FlagsV} {ks is : List V} (hb : bit < 64)
    (hf : w.consts.find? (fun c => c.value == 1 <<< bit) = none) :
    ∃ v ns, flagsRound k (.num bit i!"u32") (flagsSt w ks is) =
      .ok (.val v, flagsSt w ks (is ++ [.toks ns])) ∧
      flatAll ns = itemToks w [] (Src.codes ("RESERVED" ++ toString bit)) bit := by
  have hfind : ∀ (env : Env), lookup i!"bitflags" env = .ok (.flags w) → lookup i!"flag_bit" env = .ok (.num (1 <<< bit) i!"u64") →
      eval (callsOf Gen.outputRs_fns k) (.methFn (.meth (.field (.path [i!"bitflags"]) i!"consts") i!"iter" .nil) i!"find" .nil [i!"x"]
      (.bin .eq (.field (.path [i!"x"]) i!"value") (.path [i!"flag_bit"]))) env =
      .ok (.val .none, env) := by
    intro env h₁ h₂
    rw [eval_find h₁ h₂, hf]
    rfl
  have hname : ∀ (env : Env), lookup i!"bit" env = .ok (.num bit i!"u32") →
      eval (callsOf Gen.outputRs_fns k) (.formatIdent c!"RESERVED" c!"" (.path [i!"bit"])) env =
        .ok (.val (.ident (Src.codes ("RESERVED" ++ toString bit))), env) := by
    intro env h
    rw [codes_append]
    simp [eval, h, andThen, bindV, V.chars, codesLit]
  generalize Src.codes ("RESERVED" ++ toString bit) = nm at *
  rw [flagsRound, forBody, bindPat]
  simp only
  have hs := eval_shl (c := callsOf Gen.outputRs_fns k) (env := (i!"bit", .num bit i!"u32") :: flagsSt w ks is) hb rfl
  generalize 1 <<< bit = fb at *
  by_cases h0 : bit = 0
  · apply exists_item
    · apply scope_eq
      · unfold Gen.generate_code_to_extend_bitflags_loop0
        apply step_name
        · exact hs
        rw [evalS]
        apply eval_ifLet_none
        · exact hfind _ rfl rfl
        · exact rfl
        · apply step_name
          · exact hname _ rfl
          rw [evalS]
          apply eval_ite_false
          · exact eval_bit rfl
          · rw [h0]; rfl
          · knf
          · exact rfl
        · exact rfl
      · exact rfl
    · simp [flatAll, Node.flat, itemToks, h0]
  · apply exists_item
    · apply scope_eq
      · unfold Gen.generate_code_to_extend_bitflags_loop0
        apply step_name
        · exact hs
        rw [evalS]
        apply eval_ifLet_none
        · exact hfind _ rfl rfl
        · exact rfl
        · apply step_name
          · exact hname _ rfl
          rw [evalS]
          apply eval_ite_true
          · exact eval_bit rfl
          · simpa using h0
          · knf
          · exact rfl
        · exact rfl
      · exact rfl
    · simp [flatAll, Node.flat, itemToks, h0]

/-- The tokens for a bit -/
def bitToks (w : FlagsV) (bit : Nat) : List Tk :=
  match w.consts.find? fun c => c.value == 1 <<< bit with
  | some c => itemToks w c.attrs c.name bit
  | none => itemToks w [] (Src.codes ("RESERVED" ++ toString bit)) bit

/-- Is a constant declared for a bit? -/
def isKnown (w : FlagsV) (bit : Nat) : Bool := (w.consts.find? fun c => c.value == 1 <<< bit).isSome

theorem shl_inj {a b : Nat} (h : 1 <<< a = 1 <<< b) : a = b := by
  rw [Nat.one_shiftLeft, Nat.one_shiftLeft] at h
  exact (Nat.pow_right_inj (by omega)).1 h

theorem flags_loop {k : Nat} {w : FlagsV} (n : Nat) : ∀ {s : Nat} {l : List Nat} {is : List V} {ts : List (List Tk)}, s + n ≤ 64 →
    (∀ b ∈ l, b < s) → Rounds is ts →
    ∃ is', loop (flagsRound k) ((List.range' s n).map fun b => .num b i!"u32") (flagsSt w (l.map fun b => .num (1 <<< b) i!"u64") is) =
        .ok (.val .unit, flagsSt w ((l ++ (List.range' s n).filter (isKnown w)).map fun b => .num (1 <<< b) i!"u64") is') ∧
      Rounds is' (ts ++ (List.range' s n).map (bitToks w)) := by
  induction n with
  | zero =>
    intro s l is ts _ _ h
    exact ⟨is, by simp [loop], by simpa using h⟩
  | succ n ih =>
    intro s l is ts hs hl hi
    rw [List.range'_succ, List.map_cons, loop]
    cases hf : w.consts.find? fun c => c.value == 1 <<< s with
    | some item =>
      have hm : member (.num (1 <<< s) i!"u64") (l.map fun b => .num (1 <<< b) i!"u64") = .ok false := by
        have := member_nums (l.map (1 <<< ·)) (1 <<< s) i!"u64" i!"u64"
        rw [List.map_map] at this
        refine this.trans ?_
        rw [Except.ok.injEq]
        rw [Bool.eq_false_iff]
        intro h
        obtain ⟨b, hb, he⟩ := List.mem_map.1 (List.contains_iff_mem.1 h)
        have := hl b hb
        have := shl_inj he
        omega
      obtain ⟨v, ns, h, ht⟩ := flags_known (k := k) (is := is) (by omega) hf hm
      have hk : isKnown w s = true := by simp [isKnown, hf]
      obtain ⟨is', h', hr⟩ := ih (s := s + 1) (l := l ++ [s]) (by omega)
        (by
          intro b hb
          rcases List.mem_append.1 hb with hb | hb
          · exact Nat.lt_succ_of_lt (hl b hb)
          · simp at hb
            omega) (hi.snoc (ns := ns) rfl)
      refine ⟨is', ?_, ?_⟩
      · rw [h, List.filter_cons_of_pos hk]
        simpa using h'
      · have : bitToks w s = flatAll ns := by rw [ht, bitToks, hf]
        simpa [this] using hr
    | none =>
      obtain ⟨v, ns, h, ht⟩ := flags_unknown (k := k) (ks := l.map fun b => .num (1 <<< b) i!"u64") (is := is) (by omega) hf
      have hk : ¬ isKnown w s = true := by simp [isKnown, hf]
      obtain ⟨is', h', hr⟩ := ih (s := s + 1) (l := l) (by omega) (fun b hb => Nat.lt_succ_of_lt (hl b hb)) (hi.snoc (ns := ns) rfl)
      refine ⟨is', ?_, ?_⟩
      · rw [h, List.filter_cons_of_neg hk]
        exact h'
      · have : bitToks w s = flatAll ns := by rw [ht, bitToks, hf]
        simpa [this] using hr

/-- The condition of the error -/
theorem eval_strange {c : Ctx} {env : Env} {w : FlagsV} {ks : List V} (hw : lookup i!"bitflags" env = .ok (.flags w))
    (hk : lookup i!"known_flags" env = .ok (.list ks)) :
    eval c (.bin .ne (.meth (.path [i!"known_flags"]) i!"len" .nil) (.meth (.field (.path [i!"bitflags"]) i!"consts") i!"len" .nil)) env =
      .ok (.val (.bool (!(ks.length == w.consts.length))), env) := by
  simp [eval, hw, hk, andThen, bindV, changes, evals, methodOf, fieldOf, usizeV, binOp, V.same, Except.map]

/-- The error -/
theorem strange_block {k : Nat} {env : Env} {w : FlagsV} {ks : List V} (hw : lookup i!"bitflags" env = .ok (.flags w))
    (hk : lookup i!"known_flags" env = .ok (.list ks)) :
    ∃ env', evalS (callsOf Gen.outputRs_fns k)
      (.let_ (.name i!"user_flags") (.meth (.methFn (.meth (.field (.path [i!"bitflags"]) i!"consts") i!"iter" .nil) i!"map" .nil [i!"x"] (.field (.path [i!"x"]) i!"value")) i!"collect" .nil) <|
      .let_ (.name i!"set") (.meth (.path [i!"user_flags"]) i!"difference" (.cons (.path [i!"known_flags"]) .nil)) <|
      .semi (.return_ (.call [i!"Err"] (.cons (.call [i!"syn", i!"Error", i!"new"] (.cons (.meth (.field (.path [i!"bitflags"]) i!"name") i!"span" .nil) (.cons .format .nil))) .nil))) <|
      .nil) env = .ok (.ret .err, env') := by
  have he : eval (callsOf Gen.outputRs_fns k) (.meth (.field (.path [i!"bitflags"]) i!"consts") i!"iter" .nil) env =
      .ok (.val (.list (w.consts.map .flagConst)), env) := by
    simp [eval, hw, andThen, bindV, fieldOf, changes, evals, methodOf]
  have hm : mapValues (fun a => eval (callsOf Gen.outputRs_fns k) (.field (.path [i!"x"]) i!"value") ((i!"x", a) :: env))
      (w.consts.map .flagConst) = .ok (w.consts.map fun c => .num c.value i!"u64") := by
    refine mapValues_pure (env := fun a => (i!"x", .flagConst a) :: env) fun a => ?_
    simp [eval, lookup, andThen, bindV, fieldOf]
  refine ⟨(i!"set", .unit) :: (i!"user_flags", .list (w.consts.map fun c => .num c.value i!"u64")) :: env, ?_⟩
  refine step_name (v := .list (w.consts.map fun c => .num c.value i!"u64")) (env' := env) ?_ ?_
  · rw [eval, if_neg (by decide), eval_map he hm]
    · rfl
    · intro x h
      cases h
  refine step_name (v := .unit) (env' := (i!"user_flags", .list (w.consts.map fun c => .num c.value i!"u64")) :: env) ?_ ?_
  · simp [eval, lookup, hk, andThen, bindV, changes, evals, methodOf]
  · have h₁ : lookup i!"bitflags" ((i!"set", V.unit) :: (i!"user_flags", V.list (w.consts.map fun c => .num c.value i!"u64")) :: env) =
        .ok (.flags w) := by
      simp [lookup, hw]
    generalize ((i!"set", V.unit) :: (i!"user_flags", V.list (w.consts.map fun c => .num c.value i!"u64")) :: env) = env' at *
    have hx : findFn i!"Err" Gen.outputRs_fns = none := rfl
    simp [evalS, eval, evals, bindV, andThen, libCall, callsOf, h₁, fieldOf, methodOf, changes, hx]

/-- The statements after the check -/
def flagsTail : Sts :=
    .let_ (.name i!"vis") (.field (.path [i!"bitflags"]) i!"vis") <|
    .let_ (.name i!"attrs") (.field (.path [i!"bitflags"]) i!"attrs") <|
    .let_ (.name i!"name") (.field (.path [i!"bitflags"]) i!"name") <|
    .let_ (.name i!"from") (.match_ (.field (.path [i!"bitflags"]) i!"from_fn")
      (.cons (.ctor0 [i!"None"]) (.quote [])
      (.cons (.ctor1 [i!"Some"] (.ctor0 [i!"UbxTypeFromFn", i!"From"])) (.quote [.one (.toks t!"impl"),
        .one (.var i!"name"),
        .one (.toks t!"{ const fn from(x:"),
        .one (.var i!"repr_ty"),
        .one (.toks t!") -> Self { Self:: from_bits_truncate(x) } }")])
      (.cons (.ctor1 [i!"Some"] (.ctor0 [i!"UbxTypeFromFn", i!"FromUnchecked"])) .unimplemented
      .nil)))) <|
    .let_ (.name i!"into") (.match_ (.field (.path [i!"bitflags"]) i!"into_fn")
      (.cons (.ctor0 [i!"None"]) (.quote [])
      (.cons (.ctor1 [i!"Some"] (.ctor0 [i!"UbxTypeIntoFn", i!"Raw"])) (.quote [.one (.toks t!"impl"),
        .one (.var i!"name"),
        .one (.toks t!"{ const fn into_raw(self) ->"),
        .one (.var i!"repr_ty"),
        .one (.toks t!"{ self.bits() } }")])
      .nil))) <|
    .let_ (.name i!"serialize_fn") (.formatIdent c!"serialize_" c!"" (.meth (.meth (.path [i!"repr_ty"]) i!"to_token_stream" .nil) i!"to_string" .nil)) <|
    .let_ (.name i!"serde") (.quote [.one (.toks t!"#[cfg(feature = \"serde\")] impl serde:: Serialize for"),
      .one (.var i!"name"),
      .one (.toks t!"{ fn serialize < S > (&self, serializer: S) -> Result < S:: Ok, S:: Error > where S: serde:: Serializer, { serializer."),
      .one (.var i!"serialize_fn"),
      .one (.toks t!"(self.bits()) } }")]) <|
    .last (.call [i!"Ok"] (.cons (.quote [.one (.toks t!"bitflags! {"),
      .rep [.var i!"attrs"] t!"",
      .one (.var i!"vis"),
      .one (.toks t!"struct"),
      .one (.var i!"name"),
      .one (.toks t!":"),
      .one (.var i!"repr_ty"),
      .one (.toks t!"{"),
      .rep [.var i!"items"] t!";",
      .one (.toks t!"; } }"),
      .one (.var i!"from"),
      .one (.var i!"into"),
      .one (.var i!"serde")]) .nil))

/-- The result is these tokens, in `Ok`. -/
def GivesOk (r : Res) (ts : List Tk) : Prop := ∃ ns env, r = .ok (.val (.ok (.toks ns)), env) ∧ flatAll ns = ts

theorem givesOk {r : Res} {ns : List Node} {ts : List Tk} {env : Env} (h : r = .ok (.val (.ok (.toks ns)), env))
    (ht : flatAll ns = ts) : GivesOk r ts := ⟨ns, env, h, ht⟩

/-- The end of the code for flags -/
def flagsEnd (w : FlagsV) (ts : List (List Tk)) : List Tk :=
  t!"bitflags! {" ++ (w.attrs.map flatAll).flatten ++ flatAll w.vis ++ t!"struct" ++ .id w.name :: (t!":" ++ .id w.repr :: (t!"{" ++
    joinToks t!";" ts ++ t!"; } }" ++
    (if w.fromFn = none then [] else t!"impl" ++ .id w.name :: (t!"{ const fn from(x:" ++ .id w.repr :: t!") -> Self { Self::from_bits_truncate(x) } }")) ++
    (if w.intoRaw then t!"impl" ++ .id w.name :: (t!"{ const fn into_raw(self) ->" ++ .id w.repr :: t!"{ self.bits() } }") else []) ++
    t!"#[cfg(feature = \"serde\")] impl serde::Serialize for" ++ .id w.name :: (t!"{" ++ serializeHead ++
    t!"{ serializer." ++ .id (c!"serialize_" ++ w.repr) :: t!"(self.bits()) } }")))

theorem flags_tail {k : Nat} {w : FlagsV} {ks is : List V} {ts : List (List Tk)} (hi : Rounds is ts)
    (hf : w.fromFn ≠ some .fromUnchecked) :
    GivesOk (evalS (callsOf Gen.outputRs_fns k) flagsTail (flagsSt w ks is)) (flagsEnd w ts) := by
  have hi := hi.flat
  unfold flagsEnd
  obtain ⟨name, nbits, repr, consts, attrs, vis, rest, fromFn, intoRaw⟩ := w
  have hser : ∀ (env : Env), lookup i!"repr_ty" env = .ok (.ident repr) →
      eval (callsOf Gen.outputRs_fns k) (.formatIdent c!"serialize_" c!"" (.meth (.meth (.path [i!"repr_ty"]) i!"to_token_stream" .nil) i!"to_string" .nil)) env =
        .ok (.val (.ident (c!"serialize_" ++ repr)), env) := by
    intro env h
    simp [eval, evals, h, andThen, bindV, V.chars, changes, methodOf]
  generalize c!"serialize_" ++ repr = sn at *
  match fromFn, hf with
  | none, _ =>
    cases intoRaw
    · apply givesOk
      · unfold flagsTail
        apply step_name
        · exact rfl
        apply step_name
        · exact rfl
        apply step_name
        · exact rfl
        apply step_name
        · knf
        apply step_name
        · knf
        apply step_name
        · exact hser _ rfl
        knf
      · simp [flatAll, Node.flat, hi, attrs_flat, serializeHead]
    · apply givesOk
      · unfold flagsTail
        apply step_name
        · exact rfl
        apply step_name
        · exact rfl
        apply step_name
        · exact rfl
        apply step_name
        · knf
        apply step_name
        · knf
        apply step_name
        · exact hser _ rfl
        knf
      · simp [flatAll, Node.flat, hi, attrs_flat, serializeHead]
  | some .from, _ =>
    cases intoRaw
    · apply givesOk
      · unfold flagsTail
        apply step_name
        · exact rfl
        apply step_name
        · exact rfl
        apply step_name
        · exact rfl
        apply step_name
        · knf
        apply step_name
        · knf
        apply step_name
        · exact hser _ rfl
        knf
      · simp [flatAll, Node.flat, hi, attrs_flat, serializeHead]
    · apply givesOk
      · unfold flagsTail
        apply step_name
        · exact rfl
        apply step_name
        · exact rfl
        apply step_name
        · exact rfl
        apply step_name
        · knf
        apply step_name
        · knf
        apply step_name
        · exact hser _ rfl
        knf
      · simp [flatAll, Node.flat, hi, attrs_flat, serializeHead]

theorem flags_tail_fails {k : Nat} {w : FlagsV} {ks is : List V} (hf : w.fromFn = some .fromUnchecked) :
    evalS (callsOf Gen.outputRs_fns k) flagsTail (flagsSt w ks is) = .error .panic := by
  obtain ⟨name, nbits, repr, consts, attrs, vis, rest, fromFn, intoRaw⟩ := w
  cases hf
  rfl

theorem generate_flags (d : FlagsDesc) (fromFn : Option FromFn) (rest : Option Rest) :
    Rust.generateFlagsCode d fromFn rest =
      if rest ≠ some .reserved then .error "Only reserved supported"
      else if ((List.range d.nbits).filter fun bit => d.consts.any fun c => c.2 == 1 <<< bit).length ≠ d.consts.length then
        .error "Strange flags, not power of 2?"
      else if fromFn = some .fromUnchecked then .error "not implemented"
      else .ok
        { name := d.name, repr := Rust.flagsRepr d.nbits
          items := (List.range d.nbits).map fun bit =>
            match d.consts.find? fun c => c.2 == 1 <<< bit with
            | some c => (c.1, Rust.flagExpr (Rust.flagsRepr d.nbits) bit)
            | none => ("RESERVED" ++ toString bit, Rust.flagExpr (Rust.flagsRepr d.nbits) bit)
          from_ := if fromFn = none then none else
            some { head := "const fn from(x: " ++ (Rust.flagsRepr d.nbits).text ++ ") -> Self", name := "from"
                   params := [.x_]
                   body := [.tail (.call (.user "Self::from_bits_truncate") [.var .x_])] }
          intoRaw := if d.intoRaw then some
             { head := "const fn into_raw(self) -> " ++ (Rust.flagsRepr d.nbits).text, name := "into_raw", params := [.self_]
               body := [.tail (.meth (.var .self_) (.user "bits") [])] }
             else none
          serialize :=
             { head := Rust.serializeHead, name := "serialize", params := [.self_, .serializer]
               body := [.tail (.meth (.var .serializer) (.serializeNum (Rust.flagsRepr d.nbits).text)
                 [.meth (.var .self_) (.user "bits") []])] } } := by
  delta Rust.generateFlagsCode
  by_cases h₁ : rest = some .reserved
  · by_cases h₂ : ((List.range d.nbits).filter fun bit => d.consts.any fun c => c.2 == 1 <<< bit).length = d.consts.length
    · rcases fromFn with _ | _ | _ <;> simp [h₁, h₂, bind, Except.bind, pure, Except.pure] <;> intros <;> rfl
    · simp [h₁, h₂, bind, Except.bind, throw, throwThe, MonadExceptOf.throw]
  · simp [h₁, bind, Except.bind, throw, throwThe, MonadExceptOf.throw]

theorem repr_toks (n : Nat) : intTyToks (Rust.flagsRepr n) = [.id (Src.codes (Rust.flagsRepr n).text)] := by
  unfold Rust.flagsRepr
  split
  · rfl
  split <;> rfl

theorem find_const (constAttrs : String → List (List Tk)) (l : List (String × Nat)) (n : Nat) :
    (l.map fun c => (⟨Src.codes c.1, c.2, (constAttrs c.1).map fun a => [.tks a]⟩ : ConstV)).find? (fun c => c.value == n) =
      (l.find? fun c => c.2 == n).map fun c => ⟨Src.codes c.1, c.2, (constAttrs c.1).map fun a => [.tks a]⟩ := by
  rw [List.find?_map]
  rfl

theorem flag_toks (constAttrs : String → List (List Tk)) (attrs : List (List Tk)) (vis : List Tk) (d : FlagsDesc)
    (fromFn : Option FromFn) (rest : Option Rest) (bit : Nat) :
    bitToks (flagsV attrs vis constAttrs d fromFn rest) bit =
      flagToks constAttrs d bit (match d.consts.find? fun c => c.2 == 1 <<< bit with
            | some c => (c.1, Rust.flagExpr (Rust.flagsRepr d.nbits) bit)
            | none => ("RESERVED" ++ toString bit, Rust.flagExpr (Rust.flagsRepr d.nbits) bit)) := by
  have he : exprToks (Rust.flagExpr (Rust.flagsRepr d.nbits) bit) =
      (if bit ≠ 0 then t!"((1 as" ++ .id (Src.codes (Rust.flagsRepr d.nbits).text) :: (t!") <<" ++ .tnum bit i!"u32" :: t!")")
      else t!"(1 as" ++ .id (Src.codes (Rust.flagsRepr d.nbits).text) :: t!")") := by
    unfold Rust.flagExpr
    split <;> simp [exprToks, repr_toks, binOpToks, intTyName]
  unfold bitToks flagToks bitAttrs
  simp only [flagsV, find_const]
  rw [← Nat.one_shiftLeft]
  cases d.consts.find? fun c => c.2 == 1 <<< bit with
  | none =>
    simp only [Option.map_none, itemToks, he]
    split <;> simp [ident]
  | some c =>
    simp only [Option.map_some, itemToks, he]
    have : ((constAttrs c.1).map fun a => [Node.tks a]).map flatAll = constAttrs c.1 := by
      simp [List.map_map, Function.comp_def, flatAll, Node.flat]
    split <;> simp [ident, this]

theorem known_count (constAttrs : String → List (List Tk)) (attrs : List (List Tk)) (vis : List Tk) (d : FlagsDesc)
    (fromFn : Option FromFn) (rest : Option Rest) :
    isKnown (flagsV attrs vis constAttrs d fromFn rest) = fun bit => d.consts.any fun c => c.2 == 1 <<< bit := by
  funext bit
  unfold isKnown
  simp only [flagsV, find_const]
  rw [Option.isSome_map, Bool.eq_iff_iff, List.find?_isSome, List.any_eq_true]

theorem zipIdx_range {α : Type} (f : Nat → α) (n : Nat) :
    ((List.range n).map f).zipIdx = (List.range n).map fun i => (f i, i) := by
  apply List.ext_getElem <;> simp

/-- The check -/
def flagsCheck (r : Sts) : Sts :=
    .semi (.ite (.bin .ne (.meth (.path [i!"known_flags"]) i!"len" .nil) (.meth (.field (.path [i!"bitflags"]) i!"consts") i!"len" .nil))
      (.let_ (.name i!"user_flags") (.meth (.methFn (.meth (.field (.path [i!"bitflags"]) i!"consts") i!"iter" .nil) i!"map" .nil [i!"x"] (.field (.path [i!"x"]) i!"value")) i!"collect" .nil) <|
      .let_ (.name i!"set") (.meth (.path [i!"user_flags"]) i!"difference" (.cons (.path [i!"known_flags"]) .nil)) <|
      .semi (.return_ (.call [i!"Err"] (.cons (.call [i!"syn", i!"Error", i!"new"] (.cons (.meth (.field (.path [i!"bitflags"]) i!"name") i!"span" .nil) (.cons .format .nil))) .nil))) <|
      .nil) .nil) <| r

/-- The loop -/
theorem flags_body {k : Nat} {w : FlagsV} {P : Res → Prop} (hn : w.nbits ≤ 64)  (hr : w.rest = some .reserved)
    (h : ∀ is, Rounds is ((List.range w.nbits).map (bitToks w)) →
      P (evalS (callsOf Gen.outputRs_fns k) (flagsCheck flagsTail)
        (flagsSt w (((List.range w.nbits).filter (isKnown w)).map fun b => .num (1 <<< b) i!"u64") is))) :
    P (evalS (callsOf Gen.outputRs_fns k) Gen.generate_code_to_extend_bitflags_body [(i!"bitflags", .flags w)]) := by
  obtain ⟨is, hl, hi⟩ := flags_loop (k := k) (w := w) w.nbits (s := 0) (l := []) (is := []) (ts := []) (by omega) (by simp) Rounds.nil
  rw [← List.range_eq_range'] at hl hi
  have h := h is (by simpa using hi)
  have : evalS (callsOf Gen.outputRs_fns k) Gen.generate_code_to_extend_bitflags_body [(i!"bitflags", .flags w)] =
      evalS (callsOf Gen.outputRs_fns k) (flagsCheck flagsTail)
        (flagsSt w (((List.range w.nbits).filter (isKnown w)).map fun b => .num (1 <<< b) i!"u64") is) := by
    obtain ⟨name, nbits, repr, consts, attrs, vis, rest, fromFn, intoRaw⟩ := w
    cases hr
    unfold Gen.generate_code_to_extend_bitflags_body
    apply step_semi
    · exact rfl
    apply step_name
    · exact rfl
    apply step_name
    · exact rfl
    apply step_name
    · exact rfl
    refine step_for (vs := (List.range nbits).map fun b => .num b i!"u32") ?_ hl rfl
    simp [eval, lookup, andThen, bindV, fieldOf, numbers, flagsSt, numTy]
  rw [this]
  exact h

theorem flags_rest_fails {k : Nat} {w : FlagsV} (hr : w.rest ≠ some .reserved) :
    run Gen.outputRs_fns (k + 1) i!"generate_code_to_extend_bitflags" [.flags w] = .ok .err := by
  obtain ⟨name, nbits, repr, consts, attrs, vis, rest, fromFn, intoRaw⟩ := w
  match rest, hr with
  | none, _ => exact rfl
  | some .errorProne, _ => exact rfl

theorem step_return {c : Ctx} {e : Ex} {env env' : Env} {v : V} {r : Sts} (h : eval c e env = .ok (.ret v, env')) :
    evalS c (.semi e r) env = .ok (.ret v, env') := by
  rw [evalS, h]
  rfl

theorem path_bits : path "bits" = [.id c!"bits"] := by decide +kernel

theorem path_truncate : path "Self::from_bits_truncate" = t!"Self::from_bits_truncate" := by decide +kernel

theorem flags_from_toks (h : String) : bodyToks ⟨"", h, "from", [.x_], [.tail (.call (.user "Self::from_bits_truncate") [.var .x_])]⟩ =
    t!"{ Self::from_bits_truncate(x) }" := by
  simp [bodyToks, stmtsToks, stmtToks, exprToks, varToks, stmtEnd, exprsToks, funcToks, path_truncate]

theorem flags_into_toks (h : String) : bodyToks ⟨"", h, "into_raw", [.self_], [.tail (.meth (.var .self_) (.user "bits") [])]⟩ =
    t!"{ self.bits() }" := by
  simp [bodyToks, stmtsToks, stmtToks, exprToks, varToks, stmtEnd, exprsToks, methToks, path_bits]

theorem flags_serialize_toks (h t : String) : bodyToks ⟨"", h, "serialize", [.self_, .serializer],
      [.tail (.meth (.var .serializer) (.serializeNum t) [.meth (.var .self_) (.user "bits") []])]⟩ =
    t!"{ serializer." ++ .id (c!"serialize_" ++ Src.codes t) :: t!"(self.bits()) }" := by
  simp [bodyToks, stmtsToks, stmtToks, exprToks, varToks, stmtEnd, exprsToks, methToks, ident, codesLit, codes_append, path_bits]

/-- `generate_code_to_extend_bitflags` -/
theorem emits_flags (k : Nat) (attrs : List (List Tk)) (vis : List Tk) (constAttrs : String → List (List Tk)) (d : FlagsDesc)
    (fromFn : Option FromFn) (rest : Option Rest) (hd : d.nbits ≤ 64) :
    match Rust.generateFlagsCode d fromFn rest with
    | .ok code => ∃ ns, run Gen.outputRs_fns (k + 1) i!"generate_code_to_extend_bitflags" [.flags (flagsV attrs vis constAttrs d fromFn rest)] =
        .ok (.ok (.toks ns)) ∧ flatAll ns = flagsToks attrs vis constAttrs d code
    | .error m => run Gen.outputRs_fns (k + 1) i!"generate_code_to_extend_bitflags" [.flags (flagsV attrs vis constAttrs d fromFn rest)] =
        if m = "not implemented" then .error .panic else .ok .err := by
  rw [generate_flags]
  by_cases h₁ : rest = some .reserved
  · have hcheck : ∀ is, eval (callsOf Gen.outputRs_fns k) (.bin .ne (.meth (.path [i!"known_flags"]) i!"len" .nil) (.meth (.field (.path [i!"bitflags"]) i!"consts") i!"len" .nil))
        (flagsSt (flagsV attrs vis constAttrs d fromFn rest) (((List.range d.nbits).filter
          (isKnown (flagsV attrs vis constAttrs d fromFn rest))).map fun b => .num (1 <<< b) i!"u64") is) =
        .ok (.val (.bool (!(((List.range d.nbits).filter fun bit => d.consts.any fun c => c.2 == 1 <<< bit).length == d.consts.length))),
          flagsSt (flagsV attrs vis constAttrs d fromFn rest) (((List.range d.nbits).filter
          (isKnown (flagsV attrs vis constAttrs d fromFn rest))).map fun b => .num (1 <<< b) i!"u64") is) := by
      intro is
      rw [eval_strange rfl rfl, known_count, List.length_map]
      simp [flagsV]
    by_cases h₂ : ((List.range d.nbits).filter fun bit => d.consts.any fun c => c.2 == 1 <<< bit).length = d.consts.length
    · have hpass : ∀ is, evalS (callsOf Gen.outputRs_fns k) (flagsCheck flagsTail) (flagsSt (flagsV attrs vis constAttrs d fromFn rest) (((List.range d.nbits).filter
          (isKnown (flagsV attrs vis constAttrs d fromFn rest))).map fun b => .num (1 <<< b) i!"u64") is) =
          evalS (callsOf Gen.outputRs_fns k) flagsTail (flagsSt (flagsV attrs vis constAttrs d fromFn rest) (((List.range d.nbits).filter
          (isKnown (flagsV attrs vis constAttrs d fromFn rest))).map fun b => .num (1 <<< b) i!"u64") is) := by
        intro is
        unfold flagsCheck
        refine step_semi (eval_ite_false (hcheck is) (by simp [h₂]) rfl rfl) ?_
        simp
      by_cases h₃ : fromFn = some .fromUnchecked
      · simp only [if_neg (not_not_intro h₁), if_neg (not_not_intro h₂), if_pos h₃, if_true]
        apply run_panic (f := Gen.generate_code_to_extend_bitflags) rfl
        refine flags_body (P := fun r => r = .error .panic) hd h₁ fun is _ => ?_
        exact (hpass is).trans (flags_tail_fails h₃)
      · simp only [if_neg (not_not_intro h₁), if_neg (not_not_intro h₂), if_neg h₃]
        have : GivesOk (evalS (callsOf Gen.outputRs_fns k) Gen.generate_code_to_extend_bitflags_body
            [(i!"bitflags", .flags (flagsV attrs vis constAttrs d fromFn rest))]) (flagsEnd (flagsV attrs vis constAttrs d fromFn rest)
              ((List.range d.nbits).map (bitToks (flagsV attrs vis constAttrs d fromFn rest)))) := by
          refine flags_body (P := fun r => GivesOk r _) hd h₁ fun is hi => ?_
          have := flags_tail (k := k) (w := flagsV attrs vis constAttrs d fromFn rest) (ks := (((List.range d.nbits).filter
            (isKnown (flagsV attrs vis constAttrs d fromFn rest))).map fun b => .num (1 <<< b) i!"u64")) hi h₃
          rw [← hpass is] at this
          exact this
        obtain ⟨ns, env, h, ht⟩ := this
        refine ⟨ns, run_val (f := Gen.generate_code_to_extend_bitflags) rfl h, ht.trans ?_⟩
        have hitems : (List.range d.nbits).map (bitToks (flagsV attrs vis constAttrs d fromFn rest)) =
            ((List.range d.nbits).map fun bit => (match d.consts.find? fun c => c.2 == 1 <<< bit with
            | some c => (c.1, Rust.flagExpr (Rust.flagsRepr d.nbits) bit)
            | none => ("RESERVED" ++ toString bit, Rust.flagExpr (Rust.flagsRepr d.nbits) bit))).zipIdx.map fun p => flagToks constAttrs d p.2 p.1 := by
          rw [zipIdx_range, List.map_map]
          exact List.map_congr_left fun bit _ => flag_toks ..
        have ha : (attrs.map fun a => [Node.tks a]).map flatAll = attrs := by
          simp [List.map_map, Function.comp_def, flatAll, Node.flat]
        rw [hitems]
        delta flagsToks flagsEnd flagsFromToks flagsIntoToks
        simp only [flagsV, ha, repr_toks, flags_serialize_toks]
        generalize joinToks _ _ = js
        cases fromFn <;> by_cases hr : d.intoRaw = true <;>
          simp [hr, ident, flatAll, Node.flat, flags_from_toks, flags_into_toks]
    · simp only [if_neg (not_not_intro h₁), if_pos h₂]
      rw [if_neg (by decide)]
      obtain ⟨env, h⟩ : ∃ env, evalS (callsOf Gen.outputRs_fns k) Gen.generate_code_to_extend_bitflags_body
            [(i!"bitflags", .flags (flagsV attrs vis constAttrs d fromFn rest))] = .ok (.ret .err, env) := by
        refine flags_body (P := fun r => ∃ env, r = .ok (.ret .err, env)) hd h₁ fun is _ => ?_
        obtain ⟨env, h⟩ := strange_block (k := k) (w := flagsV attrs vis constAttrs d fromFn rest) (ks := (((List.range d.nbits).filter
          (isKnown (flagsV attrs vis constAttrs d fromFn rest))).map fun b => .num (1 <<< b) i!"u64")) (env := flagsSt (flagsV attrs vis constAttrs d fromFn rest) (((List.range d.nbits).filter
          (isKnown (flagsV attrs vis constAttrs d fromFn rest))).map fun b => .num (1 <<< b) i!"u64") is) rfl rfl
        unfold flagsCheck
        exact ⟨_, step_return (eval_ite_true (hcheck is) (by simp [h₂]) h rfl)⟩
      exact run_ret (f := Gen.generate_code_to_extend_bitflags) rfl h
  · simp only [if_pos h₁]
    rw [if_neg (by decide)]
    exact flags_rest_fails h₁

end Ublox.Quote
