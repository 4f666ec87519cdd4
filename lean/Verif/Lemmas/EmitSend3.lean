import Verif.Lemmas.EmitSend2

/-!
# `generate_send_code_for_packet`
-/

namespace Ublox.Quote

open Code (Tk Name)
open Emit
open Syn (PackField)

set_option maxRecDepth 10000

theorem firstTrue_any {vs : List V} (h : vs ≠ []) : ∃ v, firstTrue vs (vs.map fun _ => .bool true) = .ok (.some v) := by
  cases vs with
  | nil => exact absurd rfl h
  | cons v vs => exact ⟨v, rfl⟩

/-- `.any(|x| *x == PacketFlag::DefaultForBuilder)` -/
theorem send_default {c : Ctx} {env : Env} {pv : PackV} (hp : lookup i!"pack_descr" env = .ok (.pack pv)) :
    eval c (.methFn (.meth (.field (.field (.path [i!"pack_descr"]) i!"header") i!"flags") i!"iter" .nil) i!"any" .nil [i!"x"]
      (.bin .eq (.path [i!"x"]) (.path [i!"PacketFlag", i!"DefaultForBuilder"]))) env =
    .ok (.val (.bool (pv.header.flags.any (· = .defaultForBuilder))), env) := by
  have ht : (pv.header.flags.any (· = .defaultForBuilder)) = !pv.header.flags.isEmpty := by
    cases pv.header.flags with
    | nil => rfl
    | cons a l => cases a; rfl
  rw [ht]
  have he : eval c (.meth (.field (.field (.path [i!"pack_descr"]) i!"header") i!"flags") i!"iter" .nil) env =
      .ok (.val (.list (pv.header.flags.map fun _ => .tag [i!"PacketFlag", i!"DefaultForBuilder"])), env) := by
    simp [eval, hp, andThen, bindV, fieldOf, changes, evals, methodOf]
  have hm : ∀ l : List Syn.PacketFlag, mapValues (fun a => eval c (.bin .eq (.path [i!"x"]) (.path [i!"PacketFlag", i!"DefaultForBuilder"]))
      ((i!"x", a) :: env)) (l.map fun _ => .tag [i!"PacketFlag", i!"DefaultForBuilder"]) =
      .ok ((l.map fun _ => V.tag [i!"PacketFlag", i!"DefaultForBuilder"]).map fun _ => .bool true) := by
    intro l
    induction l with
    | nil => rfl
    | cons a l ih =>
      rw [List.map_cons, mapValues, ih]
      rfl
  rw [eval, he]
  simp only [bindV, evals, bindParams, List.cons_append, List.nil_append, closureOf, hm]
  generalize pv.header.flags = l
  cases l <;> rfl

theorem eval_u16 {c : Ctx} {env : Env} {x : Name} {n : Nat} (hx : x ≠ i!"None" ∧ x ≠ i!"true" ∧ x ≠ i!"false")
    (h : lookup x env = .ok (usizeV n)) :
    eval c (.meth (.call [i!"u16", i!"try_from"] (.cons (.path [x]) .nil)) i!"unwrap" .nil) env =
      if n < 65536 then .ok (.val (.num n i!"u16"), env) else .error .panic := by
  have he : eval c (.call [i!"u16", i!"try_from"] (.cons (.path [x]) .nil)) env =
      .ok (.val (if n < 65536 then .ok (.num n i!"u16") else .err), env) := by
    simp [eval, hx.1, hx.2.1, hx.2.2, h, andThen, bindV, evals, libCall]
  rw [eval, if_neg (by decide), he]
  · by_cases hn : n < 65536
    · simp [bindV, evals, hn, methodOf, andThen]
    · simp [bindV, evals, hn, methodOf, andThen]
  · intro x h
    cases h

theorem endedStmts_toks {ss : List Rust.Stmt} (h : ∀ s ∈ ss, stmtEnd s = t!";") : stmtsToks ss = endedStmts ss := by
  induction ss with
  | nil => simp [stmtsToks, endedStmts, ended]
  | cons s ss ih =>
    have hs := h s (by simp)
    have ih := ih fun s hs => h s (List.mem_cons_of_mem _ hs)
    simp only [endedStmts] at ih
    simp [stmtsToks, endedStmts, ended, hs, ih]

theorem framed_append {a b : Nat} {f : Rust.FnDecl} {pre mid post : List Rust.Stmt} (hf : f.body = pre ++ mid ++ post)
    (ha : pre.length = a) (hb : post.length = b) :
    framedToks a b f = t!"{" ++ (stmtsToks pre ++ (orEmpty (endedStmts mid) ++ (stmtsToks post ++ t!"}"))) := by
  have h₁ : f.body.length - b = (pre ++ mid).length := by simp [hf, hb]; omega
  have h₂ : f.body.take a = pre := by rw [hf, List.append_assoc, ← ha, List.take_left']; rfl
  have h₃ : f.body.take (f.body.length - b) = pre ++ mid := by rw [h₁, hf, List.take_left']; rfl
  have h₄ : f.body.drop (f.body.length - b) = post := by rw [h₁, hf, List.drop_left']; rfl
  rw [framedToks, h₂, h₃, h₄, ← ha, List.drop_left' rfl, linesToks_eq]
  simp

/-- `name::CONST` -/
theorem path_const {s : String} (h : IsName s) : path (s ++ "::CLASS") = .id (Src.codes s) :: t!"::CLASS" ∧
    path (s ++ "::ID") = .id (Src.codes s) :: t!"::ID" ∧
    path (s ++ "::MAX_PAYLOAD_LEN") = .id (Src.codes s) :: t!"::MAX_PAYLOAD_LEN" := by
  refine ⟨?_, ?_, ?_⟩
  all_goals
    rw [path_name_append h]
    simp only [codesLit]
    rw [splitPath_sign h.1 rfl]
    rfl

theorem Rounds.lines {vs : List V} {ts : List (List Tk)} {us : List Tk} (h : Rounds vs ts) (hu : ended ts = us) (rest : List Tk) :
    joinToks t!";" (flatRounds (vs.map fun v => [V.node v])) ++ .p 59 :: rest = orEmpty us ++ rest := by
  rw [h.flat, ← hu, ← join_ended]
  simp

theorem into_toks {name : String} {n : Nat} {ss : List Rust.Stmt} (h : IsName name) :
    framedToks 8 4 (Rust.intoPacketBytesCode name n ss) =
      t!"{ let mut ret = [0u8; Self::PACKET_LEN]; ret[0] = SYNC_CHAR_1; ret[1] = SYNC_CHAR_2; ret[2] =" ++
      (.id (Src.codes name) :: (t!"::CLASS; ret[3] =" ++ (.id (Src.codes name) :: (t!"::ID; let pack_len_bytes =" ++
      (.tnum n i!"u16" :: (t!".to_le_bytes(); ret[4] = pack_len_bytes[0]; ret[5] = pack_len_bytes[1];" ++
      (orEmpty (endedStmts ss) ++ t!"let (ck_a, ck_b) = ubx_checksum(&ret[2 .. (Self::PACKET_LEN - 2)]); ret[Self::PACKET_LEN - 2] = ck_a; ret[Self::PACKET_LEN - 1] = ck_b; ret }"))))))) := by
  rw [framed_append (a := 8) (b := 4) (f := Rust.intoPacketBytesCode name n ss) (mid := ss) rfl rfl rfl]
  simp [stmtsToks, stmtToks, stmtEnd, Rust.letE, varToks, exprToks, minEnd, path_const h, path_lits, exprsToks, methToks,
    funcToks, Rust.packetLenMinus, binOpToks, intTyName]

theorem create_toks {name : String} {n : Nat} {ss : List Rust.Stmt} (h : IsName name) :
    framedToks 6 3 (Rust.createPacketCode name n ss) =
      t!"{ out.reserve_allocate(" ++ (.tnum (n + 8) i!"usize" :: (t!")?; let len_bytes =" ++ (.tnum n i!"u16" ::
      (t!".to_le_bytes(); let header = [SYNC_CHAR_1, SYNC_CHAR_2," ++
      (.id (Src.codes name) :: (t!"::CLASS," ++ (.id (Src.codes name) ::
      (t!"::ID, len_bytes[0], len_bytes[1]]; out.write(&header)?; let mut checksum_calc = UbxChecksumCalc::default(); checksum_calc.update(&header[2 ..]);" ++
      (orEmpty (endedStmts ss) ++ t!"let (ck_a, ck_b) = checksum_calc.result(); out.write(&[ck_a, ck_b])?; Ok(()) }"))))))))) := by
  rw [framed_append (a := 6) (b := 3) (f := Rust.createPacketCode name n ss) (mid := ss) rfl rfl rfl]
  simp [stmtsToks, stmtToks, stmtEnd, Rust.letE, varToks, exprToks, minEnd, path_const h, path_lits, exprsToks, methToks,
    funcToks, intTyName, Rust.usizeLit]

theorem extend_toks {name : String} {ss : List Rust.Stmt} (h : IsName name) :
    framedToks 3 6 (Rust.extendToCode name ss) =
      t!"{ let mut len_bytes = 0; let header = [SYNC_CHAR_1, SYNC_CHAR_2," ++
      (.id (Src.codes name) :: (t!"::CLASS," ++ (.id (Src.codes name) ::
      (t!"::ID, 0, 0]; for b in header.iter() { out.extend(core::iter::once(*b)); }" ++
      (orEmpty (endedStmts ss) ++ t!"let len_bytes = len_bytes.to_le_bytes(); out[4] = len_bytes[0]; out[5] = len_bytes[1]; let (ck_a, ck_b) = ubx_checksum(&out[2 ..]); out.extend(core::iter::once(ck_a)); out.extend(core::iter::once(ck_b)); }"))))) := by
  rw [framed_append (a := 3) (b := 6) (f := Rust.extendToCode name ss) (mid := ss) rfl rfl rfl]
  simp [stmtsToks, stmtToks, stmtEnd, Rust.letE, varToks, exprToks, minEnd, path_const h, path_lits, exprsToks, methToks,
    funcToks, intTyName, Rust.usizeLit, Rust.extendAll]

/-- The code for sending, or a panic where the model has an error -/
theorem emits_send (k : Nat) (doc : List Nat) (docs : PackField → List Nat) (d : Syn.PackDesc) (hd : NamesOk d) :
    match Rust.generateSendCode d with
    | .ok code => Emits Gen.outputRs_fns (k + 2) i!"generate_send_code_for_packet" [.pack (packV doc docs d)]
        (sendToks doc docs d code)
    | .error _ => run Gen.outputRs_fns (k + 2) i!"generate_send_code_for_packet" [.pack (packV doc docs d)] =
        .error .panic := by
  have hloop := send_loop (doc := doc) (docs := docs) (k := k) hd (rest := d.fields) (pre := []) (off := 6)
    rfl rfl .nil .nil .nil .nil
  rw [Rust.generateSendCode]
  generalize hdf : (d.header.flags.any fun x => decide (x = .defaultForBuilder)) = df
  cases hrec : Rust.sendFields d.fields 6 with
  | error e =>
    rw [hrec] at hloop
    apply run_panic (f := Gen.generate_send_code_for_packet) rfl
    rw [rawCalls_eq]
    show evalS _ Gen.generate_send_code_for_packet_body _ = _
    unfold Gen.generate_send_code_for_packet_body
    iterate 8
      apply step_name
      · knf
    apply step_panic
    rw [eval]
    have he : eval (rawCalls k) (.meth (.meth (.field (.path [i!"pack_descr"]) i!"fields") i!"iter" .nil) i!"enumerate" .nil)
        (sendSt doc docs d false [] [] [] [] 6) =
        .ok (.val (.list (enumerate 0 ((d.fields.map (fieldV docs)).map .packField))), sendSt doc docs d false [] [] [] [] 6) := rfl
    refine (congrArg (fun r => bindV r _) he).trans ?_
    exact hloop
  | ok s =>
    rw [hrec] at hloop
    obtain ⟨hl, fs, ps, ws, es, off, tp, tw, te, hloop, hf, ⟨hp, hp₂⟩, ⟨hw, hw₂⟩, ⟨he, he₂⟩⟩ := hloop
    rw [List.nil_append] at hf
    simp only [bind, Except.bind]
    have hfl := hf.flat
    have hpl := hp.lines hp₂
    have hwl := hw.lines hw₂
    have hel := he.lines he₂
    have hattr : ∀ c : Ctx, ∀ env : Env, lookup i!"pack_descr" env = .ok (.pack (packV doc docs d)) →
        ∃ ns, eval c (.ite (.methFn (.meth (.field (.field (.path [i!"pack_descr"]) i!"header") i!"flags") i!"iter" .nil) i!"any" .nil
          [i!"x"] (.bin .eq (.path [i!"x"]) (.path [i!"PacketFlag", i!"DefaultForBuilder"])))
          (.last (.quote [.one (.toks t!"#[derive(Default)]")])) (.last (.quote []))) env = .ok (.val (.toks ns), env) ∧
        flatAll ns = if df then t!"#[derive(Default)]" else [] := by
      intro c env h
      have hsd := send_default (c := c) h
      rw [show (packV doc docs d).header = d.header from rfl, hdf] at hsd
      cases df
      · exact ⟨_, eval_ite_false hsd rfl rfl (by simp), rfl⟩
      · exact ⟨_, eval_ite_true hsd rfl rfl (by simp), rfl⟩
    have hlife : ∀ c : Ctx, ∀ env : Env, lookup i!"builder_needs_lifetime" env = .ok (.bool s.needsLifetime) →
        ∃ ns, eval c (.ite (.path [i!"builder_needs_lifetime"]) (.last (.quote [.one (.toks t!"< 'a >")])) (.last (.quote []))) env =
          .ok (.val (.toks ns), env) ∧ flatAll ns = if s.needsLifetime then t!"<'a>" else [] := by
      intro c env h
      have hv : eval c (.path [i!"builder_needs_lifetime"]) env = .ok (.val (.bool s.needsLifetime), env) := by
        simp [eval, h, andThen]
      generalize s.needsLifetime = b at hv
      cases b
      · exact ⟨_, eval_ite_false hv rfl rfl (by simp), rfl⟩
      · exact ⟨_, eval_ite_true hv rfl rfl (by simp), rfl⟩
    have hpay : ∀ c : Ctx, ∀ env : Env, lookup i!"pack_descr" env = .ok (.pack (packV doc docs d)) →
        eval c (.meth (.path [i!"pack_descr"]) i!"packet_payload_size" .nil) env =
          .ok (.val (optV (d.packetPayloadSize.map usizeV)), env) := by
      intro c env h
      simp [eval, h, andThen, bindV, changes, evals, methodOf, packV]
    obtain ⟨na, ha, hat⟩ := hattr (rawCalls k) (sendSt doc docs d s.needsLifetime fs ps ws es off) rfl
    obtain ⟨nl, hn, hnt⟩ := hlife (rawCalls k) ((i!"struct_comment", .str doc) :: (i!"builder_attr", .toks na) ::
      sendSt doc docs d s.needsLifetime fs ps ws es off) rfl
    clear hattr hlife
    cases hsize : d.packetPayloadSize with
    | none =>
      rw [hsize] at hpay
      refine Gives.emits (f := Gen.generate_send_code_for_packet) ?_ rfl
      rw [rawCalls_eq]
      show Gives (evalS _ Gen.generate_send_code_for_packet_body _) _
      unfold Gen.generate_send_code_for_packet_body
      apply gives
      · iterate 8
          apply step_name
          · knf
        apply step_for
        · exact rfl
        · exact hloop
        · apply step_name
          · exact ha
          apply step_name
          · knf
          apply step_name
          · exact hn
          apply step_name
          · knf
          apply step_semi
          · apply eval_ifLet_none
            · exact hpay _ _ rfl
            · rfl
            · knf
            · rfl
          knf
      · simp only [flatAll, Node.flat, hfl, hat, hnt]
        simp only [sendToks, builderToks, dynamicToks, extend_toks hd.1]
        simp [hel, docToks, ident, lifeToks, bodyToks, Rust.intoPacketVecCode, stmtsToks, stmtToks, stmtEnd, Rust.letE,
          varToks, exprToks, minEnd, path_const hd.1, path_lits, exprsToks, methToks, funcToks, Rust.extendAll, codesLit,
          codes_append, ended]
    | some n =>
      rw [hsize] at hpay
      by_cases hlt : n < 65536
      · simp only [if_pos hlt, pure, Except.pure]
        refine Gives.emits (f := Gen.generate_send_code_for_packet) ?_ rfl
        rw [rawCalls_eq]
        show Gives (evalS _ Gen.generate_send_code_for_packet_body _) _
        unfold Gen.generate_send_code_for_packet_body
        apply gives
        · iterate 8
            apply step_name
            · knf
          apply step_for
          · exact rfl
          · exact hloop
          · apply step_name
            · exact ha
            apply step_name
            · knf
            apply step_name
            · exact hn
            apply step_name
            · knf
            apply step_semi
            · apply eval_ifLet_some
              · exact hpay _ _ rfl
              · rfl
              · apply step_name
                · knf
                apply step_name
                · refine Eq.trans (eval_u16 (n := n) (by decide) rfl) ?_
                  exact if_pos hlt
                knf
              · rfl
            knf
        · simp only [flatAll, Node.flat, hfl, hat, hnt]
          simp only [sendToks, builderToks]
          delta fixedToks
          simp only [into_toks hd.1, create_toks hd.1]
          simp [hpl, hwl, docToks, ident, lifeToks, bodyToks, Rust.fromBuilderCode, stmtsToks, stmtToks, stmtEnd, Rust.letE,
            varToks, exprToks, minEnd, path_const hd.1, path_lits, exprsToks, methToks, funcToks, codesLit,
            codes_append, ended, Rust.packetLenMinus, binOpToks, Rust.usizeLit, intTyName]
      · simp only [if_neg hlt]
        apply run_panic (f := Gen.generate_send_code_for_packet) rfl
        rw [rawCalls_eq]
        show evalS _ Gen.generate_send_code_for_packet_body _ = _
        unfold Gen.generate_send_code_for_packet_body
        iterate 8
          apply step_name
          · knf
        apply step_for
        · exact rfl
        · exact hloop
        · apply step_name
          · exact ha
          apply step_name
          · knf
          apply step_name
          · exact hn
          apply step_name
          · knf
          apply step_panic
          apply eval_ifLet_some_error
          · exact hpay _ _ rfl
          · rfl
          · apply step_name
            · knf
            apply step_let_error
            refine Eq.trans (eval_u16 (n := n) (by decide) rfl) ?_
            exact if_neg hlt

end Ublox.Quote
