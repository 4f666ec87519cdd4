import Verif.Lemmas.EmitSmall

/-!
# `generate_recv_code_for_packet`
-/

namespace Ublox.Quote

open Code (Tk Name)
open Emit
open Syn (PackField)

set_option maxRecDepth 10000

/-! ## `get_raw_field_code` -/

theorem exprsToks_eq (es : List Rust.Expr) : exprsToks es = joinToks t!"," (es.map exprToks) := by
  induction es with
  | nil => simp [exprsToks, joinToks]
  | cons e es ih =>
    cases es with
    | nil => simp [exprsToks, joinToks]
    | cons e' es => simp only [exprsToks, ih, List.map_cons, joinToks]

theorem flat_raw {docs : PackField → List Nat} {f : PackField} {n off : Nat} {data : List Node} {e : Rust.Expr}
    (he : flatAll data = exprToks e) :
    flatAll (rawNodes (fieldV docs f) n off data) = exprToks (Rust.getRawFieldCode f n off e) := by
  have hb : joinToks t!"," (flatRounds ((((List.range n).map (byteNodes off data)).map V.toks).map
      fun v => [V.node v])) =
      exprsToks ((List.range n).map fun i => Rust.Expr.index e (Rust.usizeLit (off + i))) := by
    rw [flatRounds_toks, exprsToks_eq, List.map_map, List.map_map]
    refine congrArg _ (List.map_congr_left fun i _ => ?_)
    simp [byteNodes, flatAll, Node.flat, he, exprToks, Rust.usizeLit, intTyName]
  have hc : (!(n == 1) || f.ty == .path [.i8]) = true ↔ n ≠ 1 ∨ f.ty = .path [.i8] := by simp
  change flatAll (ite (f.map.getAsRef = true) _ (ite (f.isFieldRawTyByteArray = true) _
    (ite ((!(n == 1) || f.ty == .path [.i8]) = true) _ _))) = exprToks (ite (f.map.getAsRef = true) _
      (ite (f.isFieldRawTyByteArray = true) _ (ite (n ≠ 1 ∨ f.ty = .path [.i8]) _ _)))
  by_cases h₁ : f.map.getAsRef = true
  · rw [if_pos h₁, if_pos h₁]
    simp [flatAll, Node.flat, he, exprToks, Rust.usizeLit, intTyName, binOpToks]
  · rw [if_neg h₁, if_neg h₁]
    by_cases h₂ : f.isFieldRawTyByteArray = true
    · rw [if_pos h₂, if_pos h₂]
      simp only [flatAll, Node.flat, exprToks, bytesNode, hb]
      simp
    · rw [if_neg h₂, if_neg h₂]
      by_cases h₃ : n ≠ 1 ∨ f.ty = .path [.i8]
      · rw [if_pos (hc.2 h₃), if_pos h₃]
        simp only [flatAll, Node.flat, exprToks, bytesNode, hb]
        simp [fieldV]
      · rw [if_neg (fun h => h₃ (hc.1 h)), if_neg h₃]
        simp [flatAll, Node.flat, he, exprToks, Rust.usizeLit, intTyName]

/-- `get_raw_field_code`, as far as its result is known -/
def rawCall (k : Nat) (args : List V) : O V :=
  match args with
  | [.packField f, .num off ty, .toks data] =>
    if ty = i!"usize" then
      match f.sizeBytes with
      | some n => .ok (.toks (rawNodes f n off data))
      | none => run Gen.outputRs_fns (k + 1) i!"get_raw_field_code" args
    else run Gen.outputRs_fns (k + 1) i!"get_raw_field_code" args
  | args => run Gen.outputRs_fns (k + 1) i!"get_raw_field_code" args

theorem rawCall_eq (k : Nat) : rawCall k = run Gen.outputRs_fns (k + 1) i!"get_raw_field_code" := by
  funext args
  unfold rawCall
  split
  · split
    · next h =>
      subst h
      split
      · next hn => exact (run_raw _ _ _ _ _ hn).symm
      · rfl
    · rfl
  · rfl

/-- The functions of the file, with what is known of `get_raw_field_code` -/
def rawCalls (k : Nat) : Ctx := ⟨fun n => (findFn n Gen.outputRs_fns).map fun _ args =>
  if n = i!"get_raw_field_code" then rawCall k args else run Gen.outputRs_fns (k + 1) n args⟩

theorem rawCalls_eq (k : Nat) : callsOf Gen.outputRs_fns (k + 1) = rawCalls k := by
  unfold callsOf rawCalls
  refine congrArg Ctx.mk ?_
  funext n
  refine congrArg (fun g => Option.map g (findFn n Gen.outputRs_fns)) ?_
  funext _ args
  split
  · next h => rw [rawCall_eq, h]
  · rfl

/-! ## The loop over the fields -/

/-- The variables of the loop -/
def recvSt (doc : List Nat) (docs : PackField → List Nat) (d : Syn.PackDesc) (gs vs ss : List V) (off : Nat) : Env :=
  [(i!"off", usizeV off), (i!"size_fns", .list ss), (i!"field_validators", .list vs), (i!"getters", .list gs),
   (i!"ref_name", .ident (Src.codes d.name ++ c!"Ref")), (i!"pack_name", .str (Src.codes d.name)),
   (i!"pack_descr", .pack (packV doc docs d))]

/-- One round -/
def recvRound (k : Nat) : V → Env → Res :=
  forBody (.pair (.name i!"field_index") (.name i!"f")) fun env => evalS (rawCalls k) Gen.generate_recv_code_for_packet_loop0 env

theorem exists_round {doc : List Nat} {docs : PackField → List Nat} {d : Syn.PackDesc} {r : Res} {gs vs ss : List V}
    {off : Nat} {v : V} {tg tv : List Tk} (h : r = .ok (.val v, recvSt doc docs d gs vs ss off)) (hg : Toks gs tg)
    (hv : Toks vs tv) :
    ∃ gs vs v, r = .ok (.val v, recvSt doc docs d gs vs ss off) ∧ Toks gs tg ∧ Toks vs tv := ⟨gs, vs, v, h, hg, hv⟩

theorem recv_sized {doc : List Nat} {docs : PackField → List Nat} {d : Syn.PackDesc} {gs vs ss : List V}
    {off i n k : Nat} {f : PackField} {tg tv : List Tk} (hf : IsName f.intermediateFieldName)
    (hn : f.sizeBytes = some n) (hg : Toks gs tg) (hv : Toks vs tv) :
    ∃ gs' vs' v, recvRound k (.pair (usizeV i) (.packField (fieldV docs f))) (recvSt doc docs d gs vs ss off) =
        .ok (.val v, recvSt doc docs d gs' vs' ss (off + n)) ∧
      Toks gs' (tg ++ methodsToks (fieldHeads (docs f) f)
        ((if f.map.mapType.isSome then [Rust.rawGetter f n off] else []) ++ [Rust.sizedGetter f n off])) ∧
      Toks vs' (tv ++ stmtsToks (Rust.fieldValidator d.name f off)) := by
  have hr := fun data e => flat_raw (docs := docs) (f := f) (n := n) (off := off) (data := data) (e := e)
  generalize hw : fieldV docs f = w at hr
  obtain ⟨nm, ty, ⟨mt, sc, cf, gr⟩, cm, sb, it, ifn, ba, sf, op⟩ := w
  simp only [fieldV, FieldV.mk.injEq, MapV.mk.injEq] at hw
  obtain ⟨rfl, rfl, ⟨hmt, hsc, hcf, hgr⟩, rfl, hsb, hit, rfl, hba, hsf, hop⟩ := hw
  obtain rfl : sb = some n := by rw [← hsb, hn]
  have hr₁ := hr [.tks t!"self. 0"] Rust.selfBytes (by simp [flatAll, Node.flat, Rust.selfBytes, exprToks, varToks])
  have hr₂ := hr [.tks t!"payload"] (.var .payload) (by simp [flatAll, Node.flat, exprToks, varToks])
  clear hr
  rcases mt with _ | m
  · obtain rfl : it = f.ty := by rw [← hit, PackField.intermediateType, hmt]
    rcases sc with _ | q
    all_goals
      refine exists_round (by unfold recvRound recvSt; knf) (hg.snoc ?_) (hv.same ?_)
      · simp [flatAll, Node.flat, flatRounds, joinToks, V.node, hr₁, methodsToks, fieldHeads, getterHead, docToks,
          ident, hmt, hsb, hsc, Rust.sizedGetter, bodyToks, stmtsToks, stmtToks, stmtEnd, Rust.letE, varToks, exprToks, minEnd,
          binOpToks]
      · simp [Rust.fieldValidator, hmt, stmtsToks]
  · obtain rfl : it = m.ty := by rw [← hit, PackField.intermediateType, hmt]
    rcases sc with _ | q <;> rcases cf with _ | _ <;> rcases ba with _ | _
    all_goals
      first
      | refine exists_round (by unfold recvRound recvSt; knf) ((hg.snoc rfl).snoc ?_) (hv.same ?_)
      | refine exists_round (by unfold recvRound recvSt; knf) ((hg.snoc rfl).snoc ?_) (hv.snoc ?_)
    all_goals
      first
      | (simp [flatAll, Node.flat, flatRounds, joinToks, V.node, hr₁, methodsToks, fieldHeads, getterHead, docToks,
          ident, hmt, hsb, hsc, hba, Rust.sizedGetter, Rust.rawGetter, bodyToks, stmtsToks, stmtToks, stmtEnd, Rust.letE,
          varToks, exprToks, minEnd, binOpToks, codes_append, tyToks, wordsToks, codesLit, Syn.Word.text]; done)
      | (simp [flatAll, Node.flat, flatRounds, joinToks, V.node, hr₂, Rust.fieldValidator, hmt, hcf, hsb,
          Rust.validatorCode, stmtsToks, stmtToks, stmtEnd, Rust.letE, varToks, exprToks, minEnd, fieldsToks, fieldToks,
          ident, trailing, codesLit, path_lits]; done)

/-! ## Fields without known size -/

theorem recv_assert {c : Ctx} {env : Env} {i len : Nat} {fv : FieldV} {pv : PackV}
    (hi : lookup i!"field_index" env = .ok (usizeV i)) (hf : lookup i!"f" env = .ok (.packField fv))
    (hp : lookup i!"pack_descr" env = .ok (.pack pv)) (hl : pv.fields.length = len) (hpos : 1 ≤ len) :
    eval c (.assert (.bin .or (.bin .eq (.path [i!"field_index"])
      (.bin .sub (.meth (.field (.path [i!"pack_descr"]) i!"fields") i!"len" .nil) (.num 1 0)))
      (.meth (.meth (.path [i!"f"]) i!"size_fn" .nil) i!"is_some" .nil))) env =
    if (i == len - 1) || fv.sizeFn.isSome then .ok (.val .unit, env) else .error .panic := by
  refine eval_assert (eval_or (eval_eq (s := i!"usize") (t := i!"usize") ?_ (eval_sub (s := i!"usize") (t := 0) ?_ ?_ hpos)) ?_)
  · simp [eval, hi, andThen]
  · simp [eval, hp, andThen, bindV, fieldOf, changes, evals, methodOf, hl]
  · simp [eval]
  · cases h : fv.sizeFn <;> simp [eval, hf, andThen, bindV, changes, evals, methodOf, h, optV]

/-- The functions for sizes, as values -/
def sizeFnVals (ss : List (List Syn.Word)) : List V := ss.map fun p => .toks [.path p]

/-- `+ e.size()` for every function -/
def sizeSum (e : List Tk) (ss : List (List Syn.Word)) : List Tk :=
  ss.flatMap fun p => t!"+" ++ (e ++ (t!"." ++ (wordsToks p ++ t!"()")))

theorem offsetSum_toks {off : Nat} {e : Rust.Expr} {ss : List (List Syn.Word)}
    (hss : ∀ p ∈ ss, ∀ w ∈ p, IsName w.text) :
    exprToks (Rust.offsetSum off e (ss.map Rust.pathText)) = .tnum off i!"usize" :: sizeSum (exprToks e) ss := by
  have main : ∀ (acc : Rust.Expr), exprToks (List.foldl (fun acc s => Rust.Expr.bin .add acc (.meth e (.user s) [])) acc
      (ss.map Rust.pathText)) = exprToks acc ++ sizeSum (exprToks e) ss := by
    induction ss with
    | nil => simp [sizeSum]
    | cons p ss ih =>
      intro acc
      rw [List.map_cons, List.foldl_cons, ih fun q hq => hss q (List.mem_cons_of_mem _ hq)]
      simp [sizeSum, exprToks, binOpToks, methToks, path_words (hss p (by simp)), exprsToks]
  rw [Rust.offsetSum, main]
  simp [Rust.usizeLit, exprToks, intTyName]

theorem sizeSum_nodes {ss : List (List Syn.Word)} {a b : List Tk} :
    joinToks [] (flatRounds ((sizeFnVals ss).map fun v => [.tks a, V.node v, .tks b])) =
    ss.flatMap fun p => a ++ (wordsToks p ++ b) := by
  rw [joinToks_nil, flatRounds_eq, sizeFnVals, List.map_map, List.map_map, List.flatMap_def]
  refine congrArg _ (List.map_congr_left fun p _ => ?_)
  simp [V.node, flatAll, Node.flat]

theorem tyToks_bytes : tyToks (Syn.Ty.path [Syn.Word.u8]).slice.ref = t!"&[u8]" := by
  simp [tyToks, wordsToks, Syn.Word.text, codesLit, joinToks]

theorem recv_unsized {doc : List Nat} {docs : PackField → List Nat} {d : Syn.PackDesc} {gs vs : List V}
    {off i k : Nat} {f : PackField} {tg tv : List Tk} {ss : List (List Syn.Word)} (hd : NamesOk d) (hf : f ∈ d.fields)
    (hss : ∀ p ∈ ss, ∀ w ∈ p, IsName w.text)
    (hn : f.sizeBytes = none) (hi : i = d.fields.length - 1 ∨ f.sizeFn.isSome) (hg : Toks gs tg) (hv : Toks vs tv) :
    ∃ gs' vs' v, recvRound k (.pair (usizeV i) (.packField (fieldV docs f)))
        (recvSt doc docs d gs vs (sizeFnVals ss) off) =
        .ok (.val v, recvSt doc docs d gs' vs' (sizeFnVals (ss ++ f.sizeFn.toList)) off) ∧
      Toks gs' (tg ++ methodsToks (fieldHeads (docs f) f) [Rust.unsizedGetter f off (ss.map Rust.pathText)]) ∧
      Toks vs' (tv ++ stmtsToks (Rust.fieldValidator d.name f off)) := by
  have hpos : 1 ≤ d.fields.length := List.length_pos_of_mem hf
  generalize hw : fieldV docs f = w
  obtain ⟨nm, ty, ⟨mt, sc, cf, gr⟩, cm, sb, it, ifn, ba, sf, op⟩ := w
  simp only [fieldV, FieldV.mk.injEq, MapV.mk.injEq] at hw
  obtain ⟨rfl, rfl, ⟨hmt, hsc, hcf, hgr⟩, rfl, hsb, hit, rfl, hba, hsf, hop⟩ := hw
  obtain rfl : sb = none := by rw [← hsb, hn]
  have hS : sizeFnVals (ss ++ f.sizeFn.toList) = match sf with
      | none => sizeFnVals ss
      | some p => sizeFnVals ss ++ [.toks [.path p]] := by
    cases sf <;> simp [sizeFnVals, hsf]
  rw [hS]
  clear hS
  have hp : ∀ w ∈ sf.getD [], IsName w.text := fun w hw => by
    rcases sf with _ | sf
    · simp at hw
    · exact (hd.2 f hf).2 sf (by simp [hsf]) w hw
  rcases sf with _ | sf <;> rcases mt with _ | m <;> rcases cf with _ | _
  all_goals
    apply exists_round
    · unfold recvRound
      apply forBody_eq
      · rfl
      · unfold Gen.generate_recv_code_for_packet_loop0
        apply step_name
        · knf
        apply step_name
        · knf
        apply step_name
        · knf
        rw [evalS]
        apply eval_ifLet_none
        · knf
        · rfl
        · apply step_semi
          · refine Eq.trans (recv_assert (i := i) (len := d.fields.length) rfl rfl rfl (by simp [packV]) hpos) ?_
            exact if_pos (by simpa [hsf] using hi)
          · knf
        · knf
      · rfl
    · refine hg.snoc ?_
      simp only [Option.getD] at hp
      simp only [flatAll, Node.flat, sizeSum_nodes]
      simp [flatAll, Node.flat, flatRounds, joinToks, V.node, methodsToks, fieldHeads, getterHead, docToks,
          ident, hmt, hsb, hsf, ← hit, PackField.intermediateType, Rust.unsizedGetter, Rust.tailBytesCode, Rust.selfBytes, bodyToks,
          stmtsToks, stmtToks, stmtEnd, Rust.letE, varToks, exprToks, minEnd, binOpToks, codes_append, codesLit,
          offsetSum_toks hss, sizeSum, Rust.usizeLit, intTyName, tyToks_bytes, Rust.selfCall, exprsToks, methToks,
          path_words hp]
      try exact sizeSum_nodes
    · first
      | exact hv.same (by simp [Rust.fieldValidator, hcf, hmt, stmtsToks]; done)
      | (refine hv.snoc ?_
         simp [flatAll, Node.flat, flatRounds, joinToks, V.node, Rust.fieldValidator, hmt, hcf, hsb,
          Rust.validatorCode, stmtsToks, stmtToks, stmtEnd, Rust.letE, varToks, exprToks, minEnd, fieldsToks, fieldToks,
          ident, trailing, codesLit, path_lits, Rust.usizeLit, intTyName]; done)

end Ublox.Quote
