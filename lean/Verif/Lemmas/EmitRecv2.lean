import Verif.Lemmas.EmitRecv

/-!
# `generate_recv_code_for_packet`
-/

namespace Ublox.Quote

open Code (Tk Name)
open Emit
open Syn (PackField)

set_option maxRecDepth 10000

theorem recv_fails {doc : List Nat} {docs : PackField → List Nat} {d : Syn.PackDesc} {gs vs ss : List V}
    {off i k : Nat} {f : PackField} (hf : f ∈ d.fields)
    (hn : f.sizeBytes = none) (hi : i ≠ d.fields.length - 1) (hs : f.sizeFn = none) :
    recvRound k (.pair (usizeV i) (.packField (fieldV docs f))) (recvSt doc docs d gs vs ss off) =
      .error .panic := by
  have hpos : 1 ≤ d.fields.length := List.length_pos_of_mem hf
  generalize hw : fieldV docs f = w
  obtain ⟨nm, ty, ⟨mt, sc, cf, gr⟩, cm, sb, it, ifn, ba, sf, op⟩ := w
  simp only [fieldV, FieldV.mk.injEq, MapV.mk.injEq] at hw
  obtain ⟨rfl, rfl, ⟨hmt, hsc, hcf, hgr⟩, rfl, hsb, hit, rfl, hba, hsf, hop⟩ := hw
  obtain rfl : sb = none := by rw [← hsb, hn]
  obtain rfl : sf = none := by rw [← hsf, hs]
  unfold recvRound
  apply forBody_error
  · rfl
  · unfold Gen.generate_recv_code_for_packet_loop0
    apply step_name
    · knf
    apply step_name
    · knf
    apply step_name
    · knf
    rw [evalS]
    apply eval_ifLet_none_error
    · knf
    · rfl
    · apply step_panic
      refine Eq.trans (recv_assert (i := i) (len := d.fields.length) rfl rfl rfl (by simp [packV]) hpos) ?_
      exact if_neg (by simpa using hi)

theorem methodsToks_append {a c : List (List Tk)} {b e : List Rust.FnDecl} (h : a.length = b.length) :
    methodsToks (a ++ c) (b ++ e) = methodsToks a b ++ methodsToks c e := by
  simp [methodsToks, List.zipWith_append h]

/-- The heads of the getters of fields -/
def heads (docs : PackField → List Nat) (fs : List PackField) : List (List Tk) :=
  fs.flatMap fun f => fieldHeads (docs f) f

theorem recv_loop {doc : List Nat} {docs : PackField → List Nat} {d : Syn.PackDesc} {k : Nat} (hd : NamesOk d)
    {rest : List PackField} : ∀ {pre : List PackField} {gs vs : List V} {ss : List (List Syn.Word)} {off : Nat} {tg tv : List Tk},
    d.fields = pre ++ rest → (∀ p ∈ ss, ∀ w ∈ p, IsName w.text) → Toks gs tg → Toks vs tv →
    match Rust.recvFields d.name rest off (ss.map Rust.pathText) with
    | .ok (gets, vals) => (heads docs rest).length = gets.length ∧
      ∃ gs' vs' ss' off', loop (recvRound k) (enumerate pre.length ((rest.map (fieldV docs)).map .packField))
          (recvSt doc docs d gs vs (sizeFnVals ss) off) = .ok (.val .unit, recvSt doc docs d gs' vs' ss' off') ∧
        Toks gs' (tg ++ methodsToks (heads docs rest) gets) ∧ Toks vs' (tv ++ stmtsToks vals)
    | .error _ => loop (recvRound k) (enumerate pre.length ((rest.map (fieldV docs)).map .packField))
          (recvSt doc docs d gs vs (sizeFnVals ss) off) = .error .panic := by
  induction rest with
  | nil =>
    intro pre gs vs ss off tg tv hpre hss hg hv
    simp only [Rust.recvFields, heads, List.flatMap_nil, List.length_nil, true_and]
    exact ⟨gs, vs, _, off, rfl, hg.same (by simp [methodsToks]), hv.same (by simp [stmtsToks])⟩
  | cons f rest ih =>
    intro pre gs vs ss off tg tv hpre hss hg hv
    have hf : f ∈ d.fields := by simp [hpre]
    have hpre' : d.fields = (pre ++ [f]) ++ rest := by simp [hpre]
    have hlen : (pre ++ [f]).length = pre.length + 1 := by simp
    have hh : heads docs (f :: rest) = fieldHeads (docs f) f ++ heads docs rest := by simp [heads]
    rw [Rust.recvFields]
    cases hsb : f.sizeBytes with
    | some n =>
      obtain ⟨gs', vs', v, hr, hg', hv'⟩ := recv_sized (doc := doc) (docs := docs) (d := d) (ss := sizeFnVals ss) (off := off)
        (i := pre.length) (k := k) (hd.2 f hf).1 hsb hg hv
      have ih := ih (pre := pre ++ [f]) (off := off + n) hpre' hss hg' hv'
      simp only [List.map_cons, enumerate, loop, hr]
      rw [hlen] at ih
      have hl : (fieldHeads (docs f) f).length =
          ((if f.map.mapType.isSome then [Rust.rawGetter f n off] else []) ++ [Rust.sizedGetter f n off]).length := by
        cases h : f.map.mapType <;> simp [fieldHeads, h, hsb]
      cases hrec : Rust.recvFields d.name rest (off + n) (ss.map Rust.pathText) with
      | error e =>
        rw [hrec] at ih
        exact ih
      | ok p =>
        obtain ⟨gets, vals⟩ := p
        rw [hrec] at ih
        obtain ⟨hlr, gs'', vs'', ss'', off'', h₁, h₂, h₃⟩ := ih
        refine ⟨?_, gs'', vs'', ss'', off'', h₁, h₂.same ?_, h₃.same ?_⟩
        · rw [hh, List.length_append, hl, hlr]
          simp
          omega
        · rw [hh, List.append_assoc]
          refine congrArg _ ?_
          rw [← methodsToks_append hl]
          simp
        · rw [stmtsToks_append, List.append_assoc]
    | none =>
      by_cases hc : (rest.isEmpty || f.sizeFn.isSome) = true
      · have hi : pre.length = d.fields.length - 1 ∨ f.sizeFn.isSome = true := by
          rcases (Bool.or_eq_true _ _).mp hc with h | h
          · left
            rw [List.isEmpty_iff] at h
            simp [hpre, h]
          · exact .inr h
        obtain ⟨gs', vs', v, hr, hg', hv'⟩ := recv_unsized (doc := doc) (docs := docs) (d := d) (ss := ss) (off := off)
          (i := pre.length) (k := k) hd hf hss hsb hi hg hv
        have hss' : ∀ p ∈ ss ++ f.sizeFn.toList, ∀ w ∈ p, IsName w.text := by
          intro p hp w hw
          rcases List.mem_append.1 hp with h | h
          · exact hss p h w hw
          · exact (hd.2 f hf).2 p (by simpa using h) w hw
        have ih := ih (pre := pre ++ [f]) (off := off) hpre' hss' hg' hv'
        simp only [if_pos hc, List.map_cons, enumerate, loop, hr]
        rw [hlen, List.map_append] at ih
        have hl : (fieldHeads (docs f) f).length = [Rust.unsizedGetter f off (ss.map Rust.pathText)].length := by
          simp [fieldHeads, hsb]
        cases hrec : Rust.recvFields d.name rest off (ss.map Rust.pathText ++ f.sizeFn.toList.map Rust.pathText) with
        | error e =>
          rw [hrec] at ih
          exact ih
        | ok p =>
          obtain ⟨gets, vals⟩ := p
          rw [hrec] at ih
          obtain ⟨hlr, gs'', vs'', ss'', off'', h₁, h₂, h₃⟩ := ih
          refine ⟨?_, gs'', vs'', ss'', off'', h₁, h₂.same ?_, h₃.same ?_⟩
          · rw [hh, List.length_append, hl, hlr]
            simp
            omega
          · rw [hh, List.append_assoc]
            refine congrArg _ ?_
            rw [← methodsToks_append hl]
            simp
          · rw [stmtsToks_append, List.append_assoc]
      · have hc' := hc
        simp only [Bool.or_eq_true, not_or, Option.isSome_iff_ne_none, ne_eq, not_not, List.isEmpty_iff] at hc'
        simp only [if_neg hc, List.map_cons, enumerate, loop]
        rw [recv_fails hf hsb _ hc'.2]
        have := List.length_pos_of_ne_nil hc'.1
        simp only [hpre, List.length_append, List.length_cons]
        omega

theorem eval_call {c : Ctx} {n : Name} {as : Exs} {env : Env} {vs : List V} {w : V} {g : List V → O V}
    (ha : ∀ k, evals c as env k = k vs env) (hc : c.call n = some g) (hg : g vs = .ok w) :
    eval c (.call [n] as) env = .ok (.val w, env) := by
  rw [eval, ha]
  simp [hc, hg, andThen]

theorem somes_sizeFns (fs : List PackField) :
    somes (fs.map fun f => optV (f.sizeFn.map fun p => .toks [.path p])) = .ok (sizeFnVals (fs.filterMap (·.sizeFn))) := by
  induction fs with
  | nil => rfl
  | cons f fs ih =>
    cases h : f.sizeFn with
    | none =>
      rw [List.map_cons, h, List.filterMap_cons_none h, ← ih]
      rfl
    | some p =>
      rw [List.map_cons, h, List.filterMap_cons_some h]
      show (somes _).map _ = _
      rw [ih]
      rfl

theorem mapValues_fields {f : V → Res} {docs : PackField → List Nat} {g : PackField → V} {fs : List PackField}
    (h : ∀ a ∈ fs, ∃ env, f (.packField (fieldV docs a)) = .ok (.val (g a), env)) :
    mapValues f ((fs.map (fieldV docs)).map .packField) = .ok (fs.map g) := by
  induction fs with
  | nil => rfl
  | cons a fs ih =>
    obtain ⟨env, h₁⟩ := h a (by simp)
    rw [List.map_cons, List.map_cons, mapValues, h₁]
    simp only [ih fun b hb => h b (List.mem_cons_of_mem _ hb)]
    rfl

theorem eval_filter_map {c : Ctx} {e body : Ex} {env env' : Env} {x : Name} {vs ws us : List V}
    (h : eval c e env = .ok (.val (.list vs), env'))
    (hm : mapValues (fun a => eval c body ((x, a) :: env')) vs = .ok ws) (hs : somes ws = .ok us) :
    eval c (.methFn e i!"filter_map" .nil [x] body) env = .ok (.val (.list us), env') := by
  rw [eval, h]
  simp only [bindV, evals, bindParams, List.cons_append, List.nil_append, closureOf, hm]
  change andThen (Except.bind (somes ws) _) _ = _
  rw [hs]
  rfl

/-- The expression that makes `validate` -/
def recvValidator : Ex := match Gen.generate_recv_code_for_packet_body with
  | .let_ _ _ (.let_ _ _ (.let_ _ _ (.let_ _ _ (.let_ _ _ (.let_ _ _ (.semi _ (.let_ _ _ (.let_ _ e _)))))))) => e
  | _ => .num 0 0

/-- The head of `validate` -/
def validateHead : List Tk := t!"fn validate(payload: &[u8]) -> Result<(), ParserError>"

theorem exists_toks {r : Res} {ns : List Node} {ts : List Tk} {env : Env} (h : r = .ok (.val (.toks ns), env))
    (ht : flatAll ns = ts) : ∃ ns, r = .ok (.val (.toks ns), env) ∧ flatAll ns = ts := ⟨ns, h, ht⟩

theorem recv_validator {c : Ctx} {doc : List Nat} {docs : PackField → List Nat} {d : Syn.PackDesc} {gs vs ss : List V}
    {off : Nat} {vals : List Rust.Stmt} (hd : NamesOk d) (hv : Toks vs (stmtsToks vals)) :
    match Rust.validateCode d vals with
    | .ok fn => ∃ ns, eval c recvValidator ((i!"struct_comment", .str doc) :: recvSt doc docs d gs vs ss off) =
        .ok (.val (.toks ns), (i!"struct_comment", .str doc) :: recvSt doc docs d gs vs ss off) ∧
        flatAll ns = validateHead ++ bodyToks fn
    | .error _ => eval c recvValidator ((i!"struct_comment", .str doc) :: recvSt doc docs d gs vs ss off) =
        .error .panic := by
  unfold recvValidator Gen.generate_recv_code_for_packet_body recvSt
  rw [Rust.validateCode]
  have hvf := hv.flat
  have hp : packV doc docs d = ⟨Src.codes d.name, d.header, doc, d.fields.map (fieldV docs), d.packetPayloadSize,
    d.packetPayloadSizeExceptLastField, d.packetPayloadSizeExceptSizeFn⟩ := rfl
  rw [hp]
  generalize hF : d.fields.map (fieldV docs) = F
  generalize hx : (d.fields.filterMap (·.sizeFn)) = L
  cases hsize : d.packetPayloadSize with
  | some n =>
    refine ⟨_, by knf, ?_⟩
    simp only [flatAll, Node.flat, hvf]
    simp [validateHead, bodyToks, stmtsToks, stmtToks, stmtEnd, Rust.letE, varToks, exprToks, minEnd,
      Rust.invalidLen, stmtsToks_append, fieldsToks, fieldToks, path_lits, trailing, codesLit, Rust.usizeLit, intTyName,
      exprsToks, methToks, binOpToks, Rust.Var.text, ident]
  | none =>
    have hfm : ∀ env : Env, lookup i!"pack_descr" env = .ok (.pack ⟨Src.codes d.name, d.header, doc, F, none,
        d.packetPayloadSizeExceptLastField, d.packetPayloadSizeExceptSizeFn⟩) →
        eval c (.meth (.methFn (.meth (.field (.path [i!"pack_descr"]) i!"fields") i!"iter" .nil) i!"filter_map" .nil [i!"f"]
          (.meth (.path [i!"f"]) i!"size_fn" .nil)) i!"collect" .nil) env = .ok (.val (.list (sizeFnVals L)), env) := by
      intro env henv
      have h₁ := eval_filter_map (c := c) (e := .meth (.field (.path [i!"pack_descr"]) i!"fields") i!"iter" .nil)
        (body := .meth (.path [i!"f"]) i!"size_fn" .nil) (env := env) (env' := env) (x := i!"f")
        (vs := F.map .packField) (ws := d.fields.map fun f => optV (f.sizeFn.map fun p => .toks [.path p])) (us := sizeFnVals L)
        (by simp [eval, henv, andThen, bindV, fieldOf, changes, evals, methodOf])
        (by
          rw [← hF]
          refine mapValues_fields fun a _ => ⟨_, rfl⟩)
        (by rw [somes_sizeFns, hx])
      rw [eval, if_neg (by decide), h₁]
      · rfl
      · intro x h
        cases h
    by_cases hL : L = []
    · subst hL
      simp only [List.map_nil, List.isEmpty_nil, if_true]
      cases hlast : d.packetPayloadSizeExceptLastField with
      | none =>
        rw [hlast] at hfm
        apply eval_ifLet_none_error
        · knf
        · rfl
        · apply step_name
          · exact hfm _ rfl
          · knf
      | some m =>
        rw [hlast] at hfm
        apply exists_toks
        · apply eval_ifLet_none
          · knf
          · rfl
          · apply step_name
            · exact hfm _ rfl
            · knf
          · rfl
        · simp only [flatAll, Node.flat, hvf]
          simp [validateHead, bodyToks, stmtsToks, stmtToks, stmtEnd, Rust.letE, varToks, exprToks, minEnd,
            Rust.invalidLen, stmtsToks_append, fieldsToks, fieldToks, path_lits, trailing, codesLit, Rust.usizeLit, intTyName,
            exprsToks, methToks, binOpToks, Rust.Var.text, ident]
    · rw [if_neg (by simpa using hL)]
      have hLn : ∀ p ∈ L, ∀ w ∈ p, IsName w.text := by
        intro p hp w hw
        rw [← hx, List.mem_filterMap] at hp
        obtain ⟨f, hf, hfp⟩ := hp
        exact (hd.2 f hf).2 p (by simpa using hfp) w hw
      have hname : ∀ s : String, s = d.name ++ "Ref" → path s = [.id (Src.codes d.name ++ c!"Ref")] := by
        rintro s rfl
        rw [path_name_append hd.1]
        simp only [codesLit]
        simp [splitPath, sign]
        rw [show ∀ l : List Nat, 102 :: 101 :: 82 :: l = [102, 101, 82] ++ l from fun _ => rfl]
        rw [show [102, 101, 82] ++ (Src.codes d.name).reverse = (Src.codes d.name ++ [82, 101, 102]).reverse by simp]
        rw [flush_name (by simp)]
      generalize d.packetPayloadSizeExceptSizeFn = sz at *
      rcases sz with _ | m
      all_goals
        apply exists_toks
        · apply eval_ifLet_none
          · knf
          · rfl
          · apply step_name
            · exact hfm _ rfl
            · apply step_name
              · apply eval_ite_false
                · knf
                · simpa [sizeFnVals] using hL
                · apply step_name
                  · knf
                  · knf
                · rfl
              · knf
          · rfl
        · simp only [flatAll, Node.flat, hvf]
          simp [validateHead, bodyToks, stmtsToks, stmtToks, stmtEnd, Rust.letE, varToks, exprToks, minEnd, offsetSum_toks hLn,
            Rust.invalidLen, stmtsToks_append, fieldsToks, fieldToks, path_lits, trailing, codesLit, Rust.usizeLit, intTyName,
            exprsToks, methToks, binOpToks, Rust.Var.text, ident, hname]
          rw [joinToks_nil, flatRounds_eq, sizeFnVals, List.map_map, List.map_map, sizeSum, List.flatMap_def]
          refine congrArg _ (List.map_congr_left fun p _ => ?_)
          simp [V.node, flatAll, Node.flat]

/-- The code for receiving, or a panic where the model has an error -/
theorem emits_recv (k : Nat) (doc : List Nat) (docs : PackField → List Nat) (d : Syn.PackDesc) (hd : NamesOk d) :
    match Rust.generateRecvCode d with
    | .ok code => Emits Gen.outputRs_fns (k + 2) i!"generate_recv_code_for_packet" [.pack (packV doc docs d)]
        (recvToks doc docs d code)
    | .error _ => run Gen.outputRs_fns (k + 2) i!"generate_recv_code_for_packet" [.pack (packV doc docs d)] =
        .error .panic := by
  have hloop := recv_loop (doc := doc) (docs := docs) (k := k) hd (rest := d.fields) (pre := []) (ss := []) (off := 0)
    rfl (by simp) .nil .nil
  obtain ⟨dn, hdbg, hdt⟩ := emits_debug k doc docs d fun f hf => (hd.2 f hf).1
  obtain ⟨sn, hser, hst⟩ := emits_serialize k doc docs d fun f hf => (hd.2 f hf).1
  rw [codes_append] at hdbg hser
  rw [Rust.generateRecvCode]
  cases hrec : Rust.recvFields d.name d.fields 0 [] with
  | error e =>
    rw [List.map_nil, hrec] at hloop
    apply run_panic (f := Gen.generate_recv_code_for_packet) rfl
    rw [rawCalls_eq]
    show evalS _ Gen.generate_recv_code_for_packet_body _ = _
    unfold Gen.generate_recv_code_for_packet_body
    iterate 6
      apply step_name
      · knf
    apply step_panic
    rw [eval]
    have he : eval (rawCalls k) (.meth (.meth (.field (.path [i!"pack_descr"]) i!"fields") i!"iter" .nil) i!"enumerate" .nil)
        (recvSt doc docs d [] [] [] 0) =
        .ok (.val (.list (enumerate 0 ((d.fields.map (fieldV docs)).map .packField))), recvSt doc docs d [] [] [] 0) := rfl
    refine (congrArg (fun r => bindV r _) he).trans ?_
    exact hloop
  | ok p =>
    obtain ⟨gets, vals⟩ := p
    rw [List.map_nil, hrec] at hloop
    obtain ⟨hl, gs, vs, ss, off, hloop, hg, hv⟩ := hloop
    rw [List.nil_append] at hg hv
    have hval := recv_validator (c := rawCalls k) (doc := doc) (docs := docs) (gs := gs) (ss := ss) (off := off) hd hv
    cases hvc : Rust.validateCode d vals with
    | error e =>
      rw [hvc] at hval
      simp only [bind, Except.bind, hvc]
      apply run_panic (f := Gen.generate_recv_code_for_packet) rfl
      rw [rawCalls_eq]
      show evalS _ Gen.generate_recv_code_for_packet_body _ = _
      unfold Gen.generate_recv_code_for_packet_body
      iterate 6
        apply step_name
        · knf
      apply step_for
      · exact rfl
      · exact hloop
      · apply step_name
        · knf
        apply step_let_error
        exact hval
    | ok fn =>
      rw [hvc] at hval
      obtain ⟨vn, hval, hvt⟩ := hval
      simp only [bind, Except.bind, hvc, pure, Except.pure]
      refine Gives.emits (f := Gen.generate_recv_code_for_packet) ?_ rfl
      rw [rawCalls_eq]
      show Gives (evalS _ Gen.generate_recv_code_for_packet_body _) _
      unfold Gen.generate_recv_code_for_packet_body
      apply gives
      · iterate 6
          apply step_name
          · knf
        apply step_for
        · exact rfl
        · exact hloop
        · apply step_name
          · knf
          apply step_name
          · exact hval
          apply step_name
          · apply eval_call
            · intro k
              rfl
            · rfl
            · exact hdbg
          apply step_name
          · apply eval_call
            · intro k
              rfl
            · rfl
            · exact hser
          knf
      · simp only [flatAll, Node.flat, hg.flat, hvt, hdt, hst]
        simp only [recvToks, recvHeads, List.cons_append, List.nil_append]
        have hm : methodsToks (t!"#[inline] pub fn as_bytes(&self) -> &[u8]" :: (heads docs d.fields ++ [validateHead]))
            (Rust.asBytesCode :: (gets ++ [fn])) = t!"#[inline] pub fn as_bytes(&self) -> &[u8]" ++ bodyToks Rust.asBytesCode ++
              methodsToks (heads docs d.fields) gets ++ (validateHead ++ bodyToks fn) := by
          rw [← List.singleton_append, ← List.singleton_append (l := gets ++ [fn]), methodsToks_append rfl, methodsToks_append hl]
          simp [methodsToks]
        simp only [heads, validateHead] at hm
        rw [hm]
        simp [docToks, ident, codes_append, codesLit, heads, validateHead, bodyToks, Rust.asBytesCode, stmtsToks, stmtToks,
          stmtEnd, exprToks, varToks, Rust.selfBytes]

/-- One head per method -/
theorem recv_heads {docs : PackField → List Nat} {d : Syn.PackDesc} {code : Rust.RecvCode}
    (h : Rust.generateRecvCode d = .ok code) : (recvHeads docs d).length = code.methods.length := by
  have main : ∀ (fs : List PackField) (off : Nat) (ss : List String) (gets : List Rust.FnDecl) (vals : List Rust.Stmt),
      Rust.recvFields d.name fs off ss = .ok (gets, vals) → (heads docs fs).length = gets.length := by
    intro fs
    induction fs with
    | nil =>
      intro off ss gets vals h
      simp only [Rust.recvFields, Except.ok.injEq, Prod.mk.injEq] at h
      simp [heads, ← h.1]
    | cons f fs ih =>
      intro off ss gets vals h
      have hh : heads docs (f :: fs) = fieldHeads (docs f) f ++ heads docs fs := by simp [heads]
      rw [hh, List.length_append]
      rw [Rust.recvFields] at h
      cases hsb : f.sizeBytes with
      | some n =>
        simp only [hsb] at h
        cases hr : Rust.recvFields d.name fs (off + n) ss with
        | error e => rw [hr] at h; cases h
        | ok p =>
          rw [hr] at h
          obtain ⟨g, v⟩ := p
          cases h
          rw [ih _ _ _ _ hr]
          cases hm : f.map.mapType <;> simp [fieldHeads, hm, hsb] <;> omega
      | none =>
        simp only [hsb] at h
        split at h
        · cases hr : Rust.recvFields d.name fs off (ss ++ f.sizeFn.toList.map Rust.pathText) with
          | error e => rw [hr] at h; cases h
          | ok p =>
            rw [hr] at h
            obtain ⟨g, v⟩ := p
            cases h
            rw [ih _ _ _ _ hr]
            simp [fieldHeads, hsb]
            omega
        · cases h
  rw [Rust.generateRecvCode] at h
  cases hr : Rust.recvFields d.name d.fields 0 [] with
  | error e => rw [hr] at h; cases h
  | ok p =>
    obtain ⟨gets, vals⟩ := p
    rw [hr] at h
    simp only [bind, Except.bind] at h
    cases hv : Rust.validateCode d vals with
    | error e => rw [hv] at h; cases h
    | ok fn =>
      rw [hv] at h
      cases h
      have := main _ _ _ _ _ hr
      simp only [heads] at this
      simp [recvHeads, this]

end Ublox.Quote
