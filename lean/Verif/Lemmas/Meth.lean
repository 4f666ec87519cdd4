import Verif.Lemmas.GenMeth
import Verif.Spec.Methods

/-!
# What the methods in the text of `types.rs` return
-/

namespace Ublox.Meth

open Code (Tk Name)
open Quote (O Stop stuck tyToks scaleTok wordsToks fnToks)
open Syn (Ty Word)
open Spec (knownSize)

set_option maxRecDepth 10000

/-- All functions -/
def allFns : List Fn := Gen.Meth.typesRs_fns ++ Gen.Meth.libRs_fns

theorem run_fixed (M k : Nat) (l : PayloadLen) :
    run M allFns (k + 1) i!"PayloadLen" i!"fixed" [.payloadLen l] = .ok (optV .num (Syn.payloadFixed l)) := by
  cases l <;> rfl

theorem run_has_intermediate_type (M k : Nat) (docs : Syn.PackField → List Nat) (f : Syn.PackField) :
    run M allFns (k + 1) i!"PackField" i!"has_intermediate_type" [fieldV docs f] = .ok (.bool f.map.mapType.isSome) := by
  obtain ⟨nm, ty, ⟨mt, sc, al, cmf, gar⟩, sz⟩ := f
  cases mt <;> rfl

theorem run_intermediate_type (M k : Nat) (docs : Syn.PackField → List Nat) (f : Syn.PackField) :
    run M allFns (k + 1) i!"PackField" i!"intermediate_type" [fieldV docs f] = .ok (.ty f.intermediateType) := by
  obtain ⟨nm, ty, ⟨mt, sc, al, cmf, gar⟩, sz⟩ := f
  cases mt <;> rfl

theorem run_intermediate_field_name (M k : Nat) (docs : Syn.PackField → List Nat) (f : Syn.PackField) :
    run M allFns (k + 1) i!"PackField" i!"intermediate_field_name" [fieldV docs f] =
      .ok (.ident (Src.codes f.intermediateFieldName)) := by
  obtain ⟨nm, ty, ⟨mt, sc, al, cmf, gar⟩, sz⟩ := f
  cases al <;> rfl

theorem run_size_fn (M k : Nat) (docs : Syn.PackField → List Nat) (f : Syn.PackField) :
    run M allFns (k + 1) i!"PackField" i!"size_fn" [fieldV docs f] =
      .ok (optV (fun p => .toks (wordsToks p)) f.sizeFn) := by
  obtain ⟨nm, ty, ⟨mt, sc, al, cmf, gar⟩, sz⟩ := f
  cases mt with
  | none => rfl
  | some m =>
    obtain ⟨a, b, c, d, e⟩ := m
    cases e <;> rfl

theorem run_byte_array (M k : Nat) (docs : Syn.PackField → List Nat) (f : Syn.PackField) :
    run M allFns (k + 1) i!"PackField" i!"is_field_raw_ty_byte_array" [fieldV docs f] =
      .ok (.bool f.isFieldRawTyByteArray) := by
  obtain ⟨nm, ty, ⟨mt, sc, al, cmf, gar⟩, sz⟩ := f
  cases ty <;> rfl

/-- To show something of `type_is_option`, the forms of a type -/
theorem option_cases {g : Ty → O V}
    (p0 : g (.path []) = .ok (.bool false)) (g0 : ∀ a, g (.generic [] a) = .ok (.bool false))
    (p1 : ∀ w, g (.path [w]) = .ok (.bool (decide (w = Src.word c!"Option"))))
    (g1 : ∀ w a, g (.generic [w] a) = .ok (.bool (decide (w = Src.word c!"Option"))))
    (p2 : ∀ v w l, g (.path (v :: w :: l)) = .ok (.bool false))
    (g2 : ∀ v w l a, g (.generic (v :: w :: l) a) = .ok (.bool false))
    (r : ∀ t, g (.ref t) = .ok (.bool false)) (s : ∀ t, g (.slice t) = .ok (.bool false))
    (a : ∀ t n, g (.array t n) = .ok (.bool false)) (o : g .other = .ok (.bool false)) (t : Ty) :
    g t = .ok (.bool (Syn.typeIsOption t)) := by
  have opt : Src.word c!"Option" = .option := rfl
  cases t with
  | path p =>
    match p with
    | [] => exact p0
    | [w] => rw [p1, opt]; cases w <;> rfl
    | v :: _ :: _ => rw [p2]; cases v <;> rfl
  | generic p a =>
    match p with
    | [] => exact g0 a
    | [w] => rw [g1, opt]; cases w <;> rfl
    | v :: _ :: _ => rw [g2]; cases v <;> rfl
  | ref t => exact r t
  | slice t => exact s t
  | array t n => exact a t n
  | other => exact o

theorem run_type_is_option (M k : Nat) (t : Ty) :
    run M allFns (k + 2) 0 i!"type_is_option" [.ty t] = .ok (.bool (Syn.typeIsOption t)) :=
  option_cases (g := fun t => run M allFns (k + 2) 0 i!"type_is_option" [.ty t]) rfl (fun _ => rfl) (fun _ => rfl)
    (fun _ _ => rfl) (fun _ _ _ => rfl) (fun _ _ _ _ => rfl) (fun _ => rfl) (fun _ => rfl) (fun _ _ => rfl) rfl t

theorem run_is_optional (M k : Nat) (docs : Syn.PackField → List Nat) (f : Syn.PackField) :
    run M allFns (k + 3) i!"PackField" i!"is_optional" [fieldV docs f] = .ok (.bool f.isOptional) := by
  obtain ⟨nm, ty, ⟨mt, sc, al, cmf, gar⟩, sz⟩ := f
  cases mt with
  | none => rfl
  | some m =>
    obtain ⟨t, b, c, d, e⟩ := m
    exact option_cases (g := fun t => run M allFns (k + 3) i!"PackField" i!"is_optional"
      [fieldV docs ⟨nm, ty, ⟨some ⟨t, b, c, d, e⟩, sc, al, cmf, gar⟩, sz⟩]) rfl (fun _ => rfl) (fun _ => rfl)
      (fun _ _ => rfl) (fun _ _ _ => rfl) (fun _ _ _ _ => rfl) (fun _ => rfl) (fun _ => rfl) (fun _ _ => rfl) rfl t

/-! ## Sizes -/

/-- The body of the loop in `fields_size` -/
def loopBody (c : Ctx) (v : V) (env : Env) : Res :=
  scope env.length (evalS c
      (.let_ i!"size" (.try_ (.field (.path [i!"f"]) i!"size_bytes")) <|
      .semi (.assign i!"ret" (.meth (.meth (.path [i!"ret"]) i!"checked_add" (.cons (.meth (.path [i!"size"]) i!"get" .nil) .nil)) i!"expect" (.cons (.str c!"overflow during packet size calculation") .nil))) <|
      .nil) ((i!"f", v) :: env))

/-- What is around the functions -/
def ctx (M : Nat) (k : Nat) (t : Name) : Ctx :=
  ⟨M, t, fun t n => (findFn t n allFns).map fun _ => run M allFns k t n⟩

theorem loop_step (M k : Nat) (docs : Syn.PackField → List Nat) (f : Syn.PackField) (r : Nat) (w : V) :
    loopBody (ctx M k i!"PackDesc") (fieldV docs f) [(i!"ret", .num r), (i!"iter", w)] =
      match f.sizeBytes with
      | none => .ok (.ret .none, [(i!"ret", .num r), (i!"iter", w)])
      | some n => if r + n ≤ M then .ok (.val .unit, [(i!"ret", .num (r + n)), (i!"iter", w)]) else .error .panic := by
  obtain ⟨nm, ty, mp, sz⟩ := f
  cases sz with
  | none => rfl
  | some n =>
    have f1 : findFn 0 i!"get" allFns = none := rfl
    have f2 : findFn 0 i!"checked_add" allFns = none := rfl
    have f3 : findFn 0 i!"expect" allFns = none := rfl
    by_cases h : r + n ≤ M <;>
    simp [loopBody, evalS, eval, evals, bindV, andThen, fieldOf, fieldV, lookup, methodOf, assign, scope, V.typeName, ctx,
        h, f1, f2, f3, optV, Except.map]

theorem loop_ok (M k : Nat) (docs : Syn.PackField → List Nat) (w : V) :
    ∀ (fs : List Syn.PackField) (r : Nat), r + knownSize fs ≤ M →
      ∃ r', loop (loopBody (ctx M k i!"PackDesc")) (fs.map (fieldV docs)) [(i!"ret", .num r), (i!"iter", w)] =
        match Syn.fieldsSize fs with
        | none => .ok (.ret .none, [(i!"ret", .num r'), (i!"iter", w)])
        | some n => .ok (.val .unit, [(i!"ret", .num (r + n)), (i!"iter", w)]) := by
  intro fs
  induction fs with
  | nil => intro r _; exact ⟨0, rfl⟩
  | cons f fs ih =>
    intro r h
    rw [List.map_cons, loop, loop_step, Syn.fieldsSize]
    simp only [knownSize, List.map_cons, List.sum_cons] at h
    cases hs : f.sizeBytes with
    | none => exact ⟨r, rfl⟩
    | some n =>
      rw [hs] at h
      simp only [Option.getD_some] at h
      have h1 : r + n ≤ M := by omega
      obtain ⟨r', ih⟩ := ih (r + n) (by unfold knownSize; omega)
      refine ⟨r', ?_⟩
      simp only [h1, if_true, bindV, ih]
      cases Syn.fieldsSize fs with
      | none => rfl
      | some m => simp [Nat.add_assoc]

theorem loop_panic (M k : Nat) (docs : Syn.PackField → List Nat) (w : V) :
    ∀ (fs : List Syn.PackField) (r n : Nat), Syn.fieldsSize fs = some n → M < r + n → r ≤ M →
      loop (loopBody (ctx M k i!"PackDesc")) (fs.map (fieldV docs)) [(i!"ret", .num r), (i!"iter", w)] = .error .panic := by
  intro fs
  induction fs with
  | nil => intro r n h; simp [Syn.fieldsSize] at h; omega
  | cons f fs ih =>
    intro r n h hm hr
    rw [List.map_cons, loop, loop_step]
    rw [Syn.fieldsSize] at h
    cases hs : f.sizeBytes with
    | none => rw [hs] at h; cases h
    | some m =>
      rw [hs] at h
      cases hf : Syn.fieldsSize fs with
      | none => rw [hf] at h; cases h
      | some l =>
        rw [hf] at h
        have : m + l = n := by simpa using h
        by_cases h1 : r + m ≤ M
        · simp only [h1, if_true, bindV]
          exact ih _ _ hf (by omega) h1
        · simp only [h1, if_false, bindV]

theorem run_fields_size (M k : Nat) (docs : Syn.PackField → List Nat) (fs : List Syn.PackField) (h : knownSize fs ≤ M) :
    run M allFns (k + 1) i!"PackDesc" i!"fields_size" [.list (fs.map (fieldV docs))] =
      .ok (optV .num (Syn.fieldsSize fs)) := by
  obtain ⟨r', e⟩ := loop_ok M k docs (.list (fs.map (fieldV docs))) fs 0 (by omega)
  have u : run M allFns (k + 1) i!"PackDesc" i!"fields_size" [.list (fs.map (fieldV docs))] =
      closed (bindV (loop (loopBody (ctx M k i!"PackDesc")) (fs.map (fieldV docs))
        [(i!"ret", .num 0), (i!"iter", .list (fs.map (fieldV docs)))]) fun _ env =>
          evalS (ctx M k i!"PackDesc") (.last (.call [i!"Some"] (.cons (.path [i!"ret"]) .nil))) env) := rfl
  rw [u, e]
  cases Syn.fieldsSize fs with
  | none => rfl
  | some n => simp only [Nat.zero_add]; rfl

theorem run_fields_size_panic (M k : Nat) (docs : Syn.PackField → List Nat) (fs : List Syn.PackField) (n : Nat)
    (h : Syn.fieldsSize fs = some n) (hn : M < n) :
    run M allFns (k + 1) i!"PackDesc" i!"fields_size" [.list (fs.map (fieldV docs))] = .error .panic := by
  have u : run M allFns (k + 1) i!"PackDesc" i!"fields_size" [.list (fs.map (fieldV docs))] =
      closed (bindV (loop (loopBody (ctx M k i!"PackDesc")) (fs.map (fieldV docs))
        [(i!"ret", .num 0), (i!"iter", .list (fs.map (fieldV docs)))]) fun _ env =>
          evalS (ctx M k i!"PackDesc") (.last (.call [i!"Some"] (.cons (.path [i!"ret"]) .nil))) env) := rfl
  rw [u, loop_panic M k docs _ fs 0 n h (by omega) (by omega)]
  rfl

/-- The three sizes are those of `fields_size`. -/
theorem run_calls_fields_size (M k : Nat) (doc : List Nat) (docs : Syn.PackField → List Nat) (d : Syn.PackDesc)
    (n : Name) (fs : List Syn.PackField)
    (h : (n = i!"packet_payload_size" ∧ fs = d.fields) ∨
      (n = i!"packet_payload_size_except_last_field" ∧ fs = d.fields.reverse.drop 1) ∨
      (n = i!"packet_payload_size_except_size_fn" ∧ fs = d.fields.filter fun f => f.sizeFn.isNone)) :
    run M allFns (k + 2) i!"PackDesc" n [packV doc docs d] =
      run M allFns (k + 1) i!"PackDesc" i!"fields_size" [.list (fs.map (fieldV docs))] := by
  have ff : findFn i!"PackDesc" i!"fields_size" allFns = some Gen.Meth.PackDesc_fields_size := rfl
  have f1 : findFn 0 i!"iter" allFns = none := rfl
  have f2 : findFn 0 i!"rev" allFns = none := rfl
  have f3 : findFn 0 i!"skip" allFns = none := rfl
  have f4 : findFn 0 i!"is_none" allFns = none := rfl
  have f5 : findFn i!"PackField" i!"size_fn" allFns = some Gen.Meth.PackField_size_fn := rfl
  have id (x : O V) (env : Env) : closed (andThen x fun w => .ok (.val w, env)) = x := by cases x <;> rfl
  rcases h with ⟨rfl, rfl⟩ | ⟨rfl, rfl⟩ | ⟨rfl, rfl⟩
  · rw [show run M allFns (k + 2) i!"PackDesc" i!"packet_payload_size" [packV doc docs d] =
      closed (andThen (run M allFns (k + 1) i!"PackDesc" i!"fields_size" [.list (d.fields.map (fieldV docs))])
        fun w => .ok (.val w, [(i!"self", packV doc docs d)])) from rfl, id]
  · rw [show run M allFns (k + 2) i!"PackDesc" i!"packet_payload_size_except_last_field" [packV doc docs d] =
      closed (andThen (run M allFns (k + 1) i!"PackDesc" i!"fields_size" [.list ((d.fields.map (fieldV docs)).reverse.drop 1)])
        fun w => .ok (.val w, [(i!"self", packV doc docs d)])) from rfl, id, List.map_drop, List.map_reverse]
  · have flt (env : Env) (l : List Syn.PackField) :
        filterValues (fun v => closed (eval (ctx M (k + 1) i!"PackDesc")
          (.meth (.meth (.path [i!"f"]) i!"size_fn" .nil) i!"is_none" .nil) ((i!"f", v) :: env))) (l.map (fieldV docs)) =
        .ok ((l.filter fun f => f.sizeFn.isNone).map (fieldV docs)) := by
      induction l with
      | nil => rfl
      | cons f l ih =>
        have e : closed (eval (ctx M (k + 1) i!"PackDesc")
          (.meth (.meth (.path [i!"f"]) i!"size_fn" .nil) i!"is_none" .nil) ((i!"f", fieldV docs f) :: env)) =
            .ok (.bool f.sizeFn.isNone) := by
          obtain ⟨nm, ty, ⟨mt, sc, al, cmf, gar⟩, sz⟩ := f
          cases mt with
          | none => rfl
          | some m =>
            obtain ⟨a, b, c, d, e⟩ := m
            cases e <;> rfl
        rw [List.map_cons, filterValues, e]
        simp only [ih, Except.map]
        rw [List.filter_cons]
        cases f.sizeFn.isNone <;> rfl
    rw [show run M allFns (k + 2) i!"PackDesc" i!"packet_payload_size_except_size_fn" [packV doc docs d] =
      closed (bindV (andThen (Except.map V.list (filterValues (fun v => closed (eval (ctx M (k + 1) i!"PackDesc")
          (.meth (.meth (.path [i!"f"]) i!"size_fn" .nil) i!"is_none" .nil)
          ((i!"f", v) :: [(i!"self", packV doc docs d)]))) (d.fields.map (fieldV docs))))
          fun w => .ok (.val w, [(i!"self", packV doc docs d)])) fun v env =>
        andThen (callPath (ctx M (k + 1) i!"PackDesc") [i!"PackDesc", i!"fields_size"] [v]) fun w => .ok (.val w, env))
      from rfl, flt]
    exact id (run M allFns (k + 1) i!"PackDesc" i!"fields_size"
      [.list ((d.fields.filter fun f => f.sizeFn.isNone).map (fieldV docs))]) [(i!"self", packV doc docs d)]

end Ublox.Meth
