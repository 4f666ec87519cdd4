import Verif.Lemmas.EmitSend

/-!
# `generate_send_code_for_packet`
-/

namespace Ublox.Quote

open Code (Tk Name)
open Emit
open Syn (PackField)

set_option maxRecDepth 10000

theorem send_assert {c : Ctx} {env : Env} {i len : Nat} {pv : PackV}
    (hi : lookup i!"fi" env = .ok (usizeV i)) (hp : lookup i!"pack_descr" env = .ok (.pack pv))
    (hl : pv.fields.length = len) (hpos : 1 ≤ len) :
    eval c (.assertEq (.path [i!"fi"]) (.bin .sub (.meth (.field (.path [i!"pack_descr"]) i!"fields") i!"len" .nil) (.num 1 0)))
      env = if i = len - 1 then .ok (.val .unit, env) else .error .panic := by
  refine eval_assertEq (s := i!"usize") (t := i!"usize") ?_ (eval_sub (s := i!"usize") (t := 0) ?_ ?_ hpos)
  · simp [eval, hi, andThen]
  · simp [eval, hp, andThen, bindV, fieldOf, changes, evals, methodOf, hl]
  · simp [eval]

theorem exists_brk {doc : List Nat} {docs : PackField → List Nat} {d : Syn.PackDesc} {r : Res} {fs ps ws es : List V}
    {off : Nat} {nl : Bool} {tf te : List (List Tk)} {ue : List Tk}
    (h : r = .ok (.brk, sendSt doc docs d nl fs ps ws es off)) (hf : Rounds fs tf) (he : Rounds es te)
    (he' : ended te = ue) :
    ∃ fs es te, r = .ok (.brk, sendSt doc docs d nl fs ps ws es off) ∧ Rounds fs tf ∧ (Rounds es te ∧ ended te = ue) :=
  ⟨fs, es, te, h, hf, ⟨he, he'⟩⟩

theorem send_last {doc : List Nat} {docs : PackField → List Nat} {d : Syn.PackDesc} {fs ps ws es : List V}
    {nl : Bool} {off i k : Nat} {f : PackField} {tf te : List (List Tk)} (hmem : f ∈ d.fields)
    (hname : IsName f.intermediateFieldName)
    (hn : f.sizeBytes = none) (hi : i = d.fields.length - 1) (hf : Rounds fs tf) (he : Rounds es te) :
    ∃ fs' es' te', sendRound k (.pair (usizeV i) (.packField (fieldV docs f)))
        (sendSt doc docs d nl fs ps ws es off) = .ok (.brk, sendSt doc docs d true fs' ps ws es' off) ∧
      Rounds fs' (tf ++ [fieldToks' docs f]) ∧
      (Rounds es' te' ∧ ended te' = ended te ++ endedStmts (Rust.extendIterCode f)) := by
  have h0 : f.intermediateFieldName ≠ "0" := fun h => hname.2.2 (by rw [h]; rfl)
  have hpos : 1 ≤ d.fields.length := List.length_pos_of_mem hmem
  generalize hw₀ : fieldV docs f = w
  obtain ⟨nm, ty, ⟨mt, sc, cf, gr⟩, cm, sb, it, ifn, ba, sf, op⟩ := w
  simp only [fieldV, FieldV.mk.injEq, MapV.mk.injEq] at hw₀
  obtain ⟨rfl, rfl, ⟨hmt, hsc, hcf, hgr⟩, rfl, hsb, hit, rfl, hba, hsf, hop⟩ := hw₀
  obtain rfl : sb = none := by rw [← hsb, hn]
  apply exists_brk
  · unfold sendRound
    apply forBody_eq
    · rfl
    · unfold Gen.generate_send_code_for_packet_loop1
      apply step_name
      · knf
      apply step_name
      · knf
      apply step_name
      · knf
      apply step_semi
      · knf
      apply step_let_brk
      apply eval_second
      · knf
      · rfl
      · rfl
      · apply scope_eq
        · apply eval_block
          apply scope_eq
          · apply step_semi
            · knf
            apply step_semi
            · knf
            apply step_semi
            · refine Eq.trans (send_assert (i := i) (len := d.fields.length) rfl rfl (by simp [packV]) hpos) ?_
              exact if_pos hi
            knf
          · rfl
        · rfl
    · rfl
  · refine hf.snoc ?_
    simp [flatAll, Node.flat, fieldToks', docToks, ident, ← hit]
  · exact he.snoc rfl
  · simp only [ended_append, Rust.extendIterCode, endedStmts, List.map_cons, List.map_nil]
    simp [h0, ended, stmtToks, varToks, exprToks, ident, flatAll, Node.flat, stmtsToks, stmtEnd, codesLit]

theorem send_fails {doc : List Nat} {docs : PackField → List Nat} {d : Syn.PackDesc} {fs ps ws es : List V}
    {nl : Bool} {off i k : Nat} {f : PackField} (hmem : f ∈ d.fields)
    (hn : f.sizeBytes = none) (hi : i ≠ d.fields.length - 1) :
    sendRound k (.pair (usizeV i) (.packField (fieldV docs f))) (sendSt doc docs d nl fs ps ws es off) =
      .error .panic := by
  have hpos : 1 ≤ d.fields.length := List.length_pos_of_mem hmem
  generalize hw₀ : fieldV docs f = w
  obtain ⟨nm, ty, ⟨mt, sc, cf, gr⟩, cm, sb, it, ifn, ba, sf, op⟩ := w
  simp only [fieldV, FieldV.mk.injEq, MapV.mk.injEq] at hw₀
  obtain ⟨rfl, rfl, ⟨hmt, hsc, hcf, hgr⟩, rfl, hsb, hit, rfl, hba, hsf, hop⟩ := hw₀
  obtain rfl : sb = none := by rw [← hsb, hn]
  unfold sendRound
  apply forBody_error
  · rfl
  · unfold Gen.generate_send_code_for_packet_loop1
    apply step_name
    · knf
    apply step_name
    · knf
    apply step_name
    · knf
    apply step_semi
    · knf
    apply step_let_error
    apply eval_second
    · knf
    · rfl
    · rfl
    · apply scope_error
      apply eval_block
      apply scope_error
      apply step_semi
      · knf
      apply step_semi
      · knf
      apply step_panic
      refine Eq.trans (send_assert (i := i) (len := d.fields.length) rfl rfl (by simp [packV]) hpos) ?_
      exact if_neg hi

theorem send_loop {doc : List Nat} {docs : PackField → List Nat} {d : Syn.PackDesc} {k : Nat} (hd : NamesOk d)
    {rest : List PackField} : ∀ {pre : List PackField} {fs ps ws es : List V} {nl : Bool} {off : Nat}
      {tf tp tw te : List (List Tk)},
    d.fields = pre ++ rest → nl = false → Rounds fs tf → Rounds ps tp → Rounds ws tw → Rounds es te →
    match Rust.sendFields rest off with
    | .ok s => s.fields.length = rest.length ∧
      ∃ fs' ps' ws' es' off' tp' tw' te', loop (sendRound k) (enumerate pre.length ((rest.map (fieldV docs)).map .packField))
          (sendSt doc docs d nl fs ps ws es off) =
          .ok (.val .unit, sendSt doc docs d s.needsLifetime fs' ps' ws' es' off') ∧
        Rounds fs' (tf ++ builderFields docs rest s.fields) ∧
        (Rounds ps' tp' ∧ ended tp' = ended tp ++ endedStmts s.packFields) ∧
        (Rounds ws' tw' ∧ ended tw' = ended tw ++ endedStmts s.writeFields) ∧
        (Rounds es' te' ∧ ended te' = ended te ++ endedStmts s.extendFields)
    | .error _ => loop (sendRound k) (enumerate pre.length ((rest.map (fieldV docs)).map .packField))
          (sendSt doc docs d nl fs ps ws es off) = .error .panic := by
  induction rest with
  | nil =>
    intro pre fs ps ws es nl off tf tp tw te hpre hnl hf hp hw he
    subst hnl
    simp only [Rust.sendFields]
    exact ⟨rfl, fs, ps, ws, es, off, tp, tw, te, rfl, by simpa [builderFields] using hf, ⟨hp, by simp [endedStmts, ended]⟩,
      ⟨hw, by simp [endedStmts, ended]⟩, ⟨he, by simp [endedStmts, ended]⟩⟩
  | cons f rest ih =>
    intro pre fs ps ws es nl off tf tp tw te hpre hnl hf hp hw he
    have hmem : f ∈ d.fields := by simp [hpre]
    have hpre' : d.fields = (pre ++ [f]) ++ rest := by simp [hpre]
    have hlen : (pre ++ [f]).length = pre.length + 1 := by simp
    rw [Rust.sendFields]
    cases hsb : f.sizeBytes with
    | some n =>
      obtain ⟨fs', ps', ws', es', v, tp', tw', te', hr, hf', ⟨hp', hp₂⟩, ⟨hw', hw₂⟩, ⟨he', he₂⟩⟩ :=
        send_sized (doc := doc) (docs := docs) (d := d) (nl := nl) (off := off) (i := pre.length) (k := k)
          (hd.2 f hmem).1 hsb hf hp hw he
      have ih := ih (pre := pre ++ [f]) (off := off + n) hpre' hnl hf' hp' hw' he'
      simp only [List.map_cons, enumerate, loop, hr]
      rw [hlen] at ih
      cases hrec : Rust.sendFields rest (off + n) with
      | error e =>
        rw [hrec] at ih
        exact ih
      | ok s =>
        rw [hrec] at ih
        obtain ⟨hl, fs'', ps'', ws'', es'', off'', tp'', tw'', te'', h₁, h₂, ⟨h₃, h₄⟩, ⟨h₅, h₆⟩, ⟨h₇, h₈⟩⟩ := ih
        refine ⟨by simp [hl], fs'', ps'', ws'', es'', off'', tp'', tw'', te'', h₁, ?_, ⟨h₃, ?_⟩, ⟨h₅, ?_⟩, ⟨h₇, ?_⟩⟩
        · simpa [builderFields, fieldToks'] using h₂
        · rw [h₄, hp₂, endedStmts_append, List.append_assoc]
        · rw [h₆, hw₂, endedStmts_append, List.append_assoc]
        · rw [h₈, he₂, endedStmts_append, List.append_assoc]
    | none =>
      by_cases hc : rest.isEmpty = true
      · have hr : rest = [] := by simpa using hc
        subst hr
        have hi : pre.length = d.fields.length - 1 := by simp [hpre]
        obtain ⟨fs', es', te', hr, hf', ⟨he', he₂⟩⟩ := send_last (doc := doc) (docs := docs) (d := d) (nl := nl) (off := off)
          (k := k) (ps := ps) (ws := ws) hmem (hd.2 f hmem).1 hsb hi hf he
        simp only [List.isEmpty_nil, if_true, List.map_cons, enumerate, loop, hr]
        exact ⟨by simp, fs', ps, ws, es', off, tp, tw, te', rfl, by simpa [builderFields, fieldToks'] using hf',
          ⟨hp, by simp [endedStmts, ended]⟩, ⟨hw, by simp [endedStmts, ended]⟩, ⟨he', he₂⟩⟩
      · simp only [if_neg hc, List.map_cons, enumerate, loop]
        rw [send_fails hmem hsb]
        have := List.length_pos_of_ne_nil (by simpa using hc)
        simp only [hpre, List.length_append, List.length_cons]
        omega

end Ublox.Quote
