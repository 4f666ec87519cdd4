import Verif.Lemmas.EmitRecv2

/-!
# `generate_send_code_for_packet`
-/

namespace Ublox.Quote

open Code (Tk Name)
open Emit
open Syn (PackField)

set_option maxRecDepth 10000

/-! ## Lists of statements -/

/-- Values that are results of `quote!`, and the tokens of each -/
def Rounds (vs : List V) (ts : List (List Tk)) : Prop :=
  ∃ rounds : List (List Node), vs = rounds.map V.toks ∧ rounds.map flatAll = ts

theorem Rounds.nil : Rounds [] [] := ⟨[], rfl, rfl⟩

theorem Rounds.snoc {vs : List V} {ts us : List (List Tk)} {ns : List Node} (h : Rounds vs ts)
    (hn : ts ++ [flatAll ns] = us) : Rounds (vs ++ [.toks ns]) us := by
  obtain ⟨rounds, rfl, rfl⟩ := h
  exact ⟨rounds ++ [ns], by simp, by simpa using hn⟩

theorem Rounds.append {vs ws : List V} {ts us : List (List Tk)} (h : Rounds vs ts) (h' : Rounds ws us) :
    Rounds (vs ++ ws) (ts ++ us) := by
  obtain ⟨rounds, rfl, rfl⟩ := h
  obtain ⟨rounds', rfl, rfl⟩ := h'
  exact ⟨rounds ++ rounds', by simp, by simp⟩

theorem Rounds.flat {vs : List V} {ts : List (List Tk)} (h : Rounds vs ts) :
    flatRounds (vs.map fun v => [V.node v]) = ts := by
  obtain ⟨rounds, rfl, rfl⟩ := h
  exact flatRounds_toks rounds

/-- With a semicolon after each -/
def ended (ts : List (List Tk)) : List Tk := ts.flatMap (· ++ t!";")

/-- No statement is an empty one. -/
def orEmpty (ts : List Tk) : List Tk := if ts.isEmpty then t!";" else ts

theorem join_ended (ts : List (List Tk)) : joinToks t!";" ts ++ t!";" = orEmpty (ended ts) := by
  have main : ∀ a : List Tk, ∀ l, joinToks t!";" (a :: l) ++ t!";" = ended (a :: l) := by
    intro a l
    induction l generalizing a with
    | nil => simp [joinToks, ended]
    | cons b l ih =>
      rw [joinToks, List.append_assoc, ih b]
      simp [ended]
  cases ts with
  | nil => rfl
  | cons a l =>
    rw [main, orEmpty, if_neg (by simp [ended])]

/-- Statements with a semicolon after each -/
def endedStmts (ss : List Rust.Stmt) : List Tk := ended (ss.map stmtToks)

theorem linesToks_eq (ss : List Rust.Stmt) : linesToks ss = orEmpty (endedStmts ss) := join_ended _

theorem ended_append (a b : List (List Tk)) : ended (a ++ b) = ended a ++ ended b := by simp [ended]

theorem endedStmts_append (a b : List Rust.Stmt) : endedStmts (a ++ b) = endedStmts a ++ endedStmts b := by
  simp [endedStmts, ended_append]

/-! ## Evaluation -/

variable {c : Ctx} {p : Pt} {e : Ex} {r b : Sts} {env env' bs : Env} {v : V}

theorem eval_ifLet_some {a : Ex} {t u : Sts} {o : Out} {env₁ env₂ : Env}
    (ha : eval c a env = .ok (.val v, env)) (hb : bindPat p v = some bs) (ht : evalS c t (bs ++ env) = .ok (o, env₁))
    (he : env₁.drop (env₁.length - env.length) = env₂) : eval c (.ifLet p a t u) env = .ok (o, env₂) := by
  rw [eval, ha]
  simp [bindV, hb, ht, scope, he]

theorem eval_ifLet_some_error {a : Ex} {t u : Sts} {s : Stop}
    (ha : eval c a env = .ok (.val v, env)) (hb : bindPat p v = some bs) (ht : evalS c t (bs ++ env) = .error s) :
    eval c (.ifLet p a t u) env = .error s := by
  rw [eval, ha]
  simp [bindV, hb, ht, scope]

theorem step_let_brk (h : eval c e env = .ok (.brk, env')) : evalS c (.let_ p e r) env = .ok (.brk, env') := by
  rw [evalS, h]
  simp only [bindV]

theorem eval_second {a e₁ e₂ : Ex} {p₁ p₂ : Pt} {as : Ams} {res : Res} (ha : eval c a env = .ok (.val v, env))
    (h₁ : bindPat p₁ v = none) (h₂ : bindPat p₂ v = some bs) (ht : scope env.length (eval c e₂ (bs ++ env)) = res) :
    eval c (.match_ a (.cons p₁ e₁ (.cons p₂ e₂ as))) env = res := by
  rw [eval, ha]
  simp only [bindV]
  rw [evalA, h₁]
  simp only
  rw [evalA, h₂]
  exact ht

theorem scope_eq {n : Nat} {o : Out} {env₁ env₂ : Env} {res : Res} (h : res = .ok (o, env₁))
    (he : env₁.drop (env₁.length - n) = env₂) : scope n res = .ok (o, env₂) := by
  rw [h, scope, he]

theorem scope_error {n : Nat} {s : Stop} {res : Res} (h : res = .error s) : scope n res = .error s := by
  rw [h, scope]

theorem eval_block {res : Res} (h : scope env.length (evalS c b env) = res) : eval c (.block b) env = res := by
  rw [eval]
  exact h

theorem eval_assertEq {a b : Ex} {x y : Nat} {s t : Name} (ha : eval c a env = .ok (.val (.num x s), env))
    (hb : eval c b env = .ok (.val (.num y t), env)) :
    eval c (.assertEq a b) env = if x = y then .ok (.val .unit, env) else .error .panic := by
  rw [eval, ha]
  simp only [bindV, hb, V.same, andThen]
  by_cases h : x = y <;> simp [h]

/-- `xs.push(ys.last().unwrap().clone())` -/
theorem eval_push_last {x y : Name} {vs ws : List V} {ns : List Node} {env₁ : Env} (hy₀ : y ≠ i!"None" ∧ y ≠ i!"true" ∧ y ≠ i!"false")
    (hy : lookup y env = .ok (.list (ws ++ [.toks ns]))) (hx : lookup x env = .ok (.list vs))
    (ha : assign x (.list (vs ++ [.toks ns])) env = .ok env₁) :
    eval c (.meth (.path [x]) i!"push" (.cons (.meth (.meth (.meth (.path [y]) i!"last" .nil) i!"unwrap" .nil)
      i!"clone" .nil) .nil)) env = .ok (.val .unit, env₁) := by
  have hl : eval c (.meth (.meth (.meth (.path [y]) i!"last" .nil) i!"unwrap" .nil) i!"clone" .nil) env =
      .ok (.val (.toks ns), env) := by
    simp [eval, hy₀.1, hy₀.2.1, hy₀.2.2, hy, andThen, bindV, changes, evals, methodOf, optV]
  rw [eval, if_pos (by decide)]
  simp only [evals, hl, bindV, hx, andThen, changeOf, if_true, ha]

/-! ## The loop over the fields -/

/-- The variables of the loop -/
def sendSt (doc : List Nat) (docs : PackField → List Nat) (d : Syn.PackDesc) (nl : Bool) (fs ps ws es : List V)
    (off : Nat) : Env :=
  [(i!"off", usizeV off), (i!"extend_fields", .list es), (i!"write_fields", .list ws), (i!"pack_fields", .list ps),
   (i!"fields", .list fs), (i!"builder_needs_lifetime", .bool nl),
   (i!"payload_struct", .ident (Src.codes d.name ++ c!"Builder")), (i!"main_name", .ident (Src.codes d.name)),
   (i!"pack_descr", .pack (packV doc docs d))]

/-- One round -/
def sendRound (k : Nat) : V → Env → Res :=
  forBody (.pair (.name i!"fi") (.name i!"f")) fun env => evalS (rawCalls k) Gen.generate_send_code_for_packet_loop1 env

/-- `ret[off] = bytes[i]` -/
def setNodes (off i : Nat) : List Node :=
  [.tks t!"ret[", .tks [.tnum (off + i) i!"usize"], .tks t!"] = bytes[", .tks [.tnum i i!"usize"], .tks t!"]"]

/-- `pub name: ty` -/
def fieldToks' (docs : PackField → List Nat) (f : PackField) : List Tk :=
  docToks (docs f) ++ t!"pub" ++ ident f.intermediateFieldName ++ t!":" ++ tyToks f.intermediateType

theorem exists_send {doc : List Nat} {docs : PackField → List Nat} {d : Syn.PackDesc} {r : Res} {fs ps ws es : List V}
    {off : Nat} {v : V} {nl : Bool} {tf tp tw te : List (List Tk)} {up uw ue : List Tk}
    (h : r = .ok (.val v, sendSt doc docs d nl fs ps ws es off)) (hf : Rounds fs tf)
    (hp : Rounds ps tp) (hp' : ended tp = up) (hw : Rounds ws tw) (hw' : ended tw = uw) (he : Rounds es te)
    (he' : ended te = ue) :
    ∃ fs ps ws es v tp tw te, r = .ok (.val v, sendSt doc docs d nl fs ps ws es off) ∧ Rounds fs tf ∧
      (Rounds ps tp ∧ ended tp = up) ∧ (Rounds ws tw ∧ ended tw = uw) ∧ (Rounds es te ∧ ended te = ue) :=
  ⟨fs, ps, ws, es, v, tp, tw, te, h, hf, ⟨hp, hp'⟩, ⟨hw, hw'⟩, ⟨he, he'⟩⟩

theorem rounds_sets (off n : Nat) : Rounds ((List.range n).map fun i => .toks (setNodes off i))
    ((List.range n).map fun i => stmtToks (.setIndex .ret (Rust.usizeLit (off + i)) (.index (.var .bytes) (Rust.usizeLit i)))) := by
  refine ⟨(List.range n).map (setNodes off), by simp, ?_⟩
  rw [List.map_map]
  refine List.map_congr_left fun i _ => ?_
  simp [setNodes, flatAll, Node.flat, stmtToks, varToks, exprToks, Rust.usizeLit, intTyName]

/-- The variables of the inner loop -/
def innerSt (a : V) (a₁ a₂ a₃ a₄ a₅ a₆ a₇ : V) (off : Nat) (b₁ b₂ b₃ b₄ b₅ : V) (ps : List V) : Env :=
  (i!"size_bytes", a) :: (i!"field_comment", a₁) :: (i!"name", a₂) :: (i!"ty", a₃) :: (i!"f", a₄) :: (i!"fi", a₅) ::
    (i!"off", usizeV off) :: (i!"extend_fields", a₆) :: (i!"write_fields", a₇) :: (i!"pack_fields", .list ps) ::
    [(i!"fields", b₁), (i!"builder_needs_lifetime", b₂), (i!"payload_struct", b₃), (i!"main_name", b₄), (i!"pack_descr", b₅)]

theorem send_inner {c : Ctx} {a a₁ a₂ a₃ a₄ a₅ a₆ a₇ : V} {off n : Nat} {b₁ b₂ b₃ b₄ b₅ : V} {ps : List V} :
    loop (forBody (.name i!"i") fun env => evalS c Gen.generate_send_code_for_packet_loop0 env)
      (numbers i!"usize" 0 n) (innerSt a a₁ a₂ a₃ a₄ a₅ a₆ a₇ off b₁ b₂ b₃ b₄ b₅ ps) =
    .ok (.val .unit, innerSt a a₁ a₂ a₃ a₄ a₅ a₆ a₇ off b₁ b₂ b₃ b₄ b₅ (ps ++ (List.range n).map fun i => .toks (setNodes off i))) := by
  refine Eq.trans (loop_fold (β := List V) (l := List.range n) (g := fun i => .num (0 + i) i!"usize")
    (st := innerSt a a₁ a₂ a₃ a₄ a₅ a₆ a₇ off b₁ b₂ b₃ b₄ b₅) (step := fun ps i => ps ++ [.toks (setNodes off i)]) ?_ ps) ?_
  · intro i _ bs
    refine ⟨.unit, ?_⟩
    simp only [Nat.zero_add]
    kernel_rfl
  · rw [foldl_snoc]

theorem send_sized {doc : List Nat} {docs : PackField → List Nat} {d : Syn.PackDesc} {fs ps ws es : List V}
    {nl : Bool} {off i n k : Nat} {f : PackField} {tf tp tw te : List (List Tk)} (hname : IsName f.intermediateFieldName)
    (hn : f.sizeBytes = some n) (hf : Rounds fs tf) (hp : Rounds ps tp) (hw : Rounds ws tw) (he : Rounds es te) :
    ∃ fs' ps' ws' es' v tp' tw' te', sendRound k (.pair (usizeV i) (.packField (fieldV docs f)))
        (sendSt doc docs d nl fs ps ws es off) = .ok (.val v, sendSt doc docs d nl fs' ps' ws' es' (off + n)) ∧
      Rounds fs' (tf ++ [fieldToks' docs f]) ∧
      (Rounds ps' tp' ∧ ended tp' = ended tp ++ endedStmts (Rust.packFieldCode f n off)) ∧
      (Rounds ws' tw' ∧ ended tw' = ended tw ++ endedStmts (Rust.writeFieldCode f)) ∧
      (Rounds es' te' ∧ ended te' = ended te ++ endedStmts (Rust.extendFieldCode f)) := by
  have h0 : f.intermediateFieldName ≠ "0" := fun h => hname.2.2 (by rw [h]; rfl)
  generalize hw₀ : fieldV docs f = w
  obtain ⟨nm, ty, ⟨mt, sc, cf, gr⟩, cm, sb, it, ifn, ba, sf, op⟩ := w
  simp only [fieldV, FieldV.mk.injEq, MapV.mk.injEq] at hw₀
  obtain ⟨rfl, rfl, ⟨hmt, hsc, hcf, hgr⟩, rfl, hsb, hit, rfl, hba, hsf, hop⟩ := hw₀
  obtain rfl : sb = some n := by rw [← hsb, hn]
  have hset := rounds_sets off n
  rcases mt with _ | m <;> rcases ba with _ | _
  all_goals
    apply exists_send
    · unfold sendRound
      apply forBody_eq
      · rfl
      · unfold Gen.generate_send_code_for_packet_loop1
        apply step_name
        · knf
        apply step_name
        · knf
        apply step_name
        · knf
        apply step_semi
        · knf
        apply step_name
        · knf
        apply step_semi
        · knf
        apply step_semi
        · exact eval_push_last (by decide) rfl rfl rfl
        apply step_semi
        · knf
        apply step_semi
        · exact eval_push_last (by decide) rfl rfl rfl
        apply step_semi
        · knf
        apply step_for
        · exact rfl
        · exact send_inner
        · knf
      · rfl
    · refine hf.snoc ?_
      simp [flatAll, Node.flat, fieldToks', docToks, ident, ← hit]
    · exact (hp.snoc rfl).append hset
    · simp only [ended_append, Rust.packFieldCode, endedStmts, List.map_cons, List.map_map, Function.comp_def]
      simp [hmt, hba, h0, Rust.bytesCode, ended, stmtToks, Rust.letE, varToks, exprToks, minEnd, exprsToks,
        methToks, ident, flatAll, Node.flat, funcToks, stmtsToks, stmtEnd]
    · exact (hw.snoc rfl).snoc rfl
    · simp only [ended_append, Rust.writeFieldCode, endedStmts, List.map_cons, List.map_nil]
      simp [hmt, hba, h0, Rust.bytesCode, ended, stmtToks, Rust.letE, varToks, exprToks, minEnd, exprsToks,
        methToks, ident, flatAll, Node.flat, funcToks, stmtsToks, stmtEnd]
    · exact (he.snoc rfl).snoc rfl
    · simp only [ended_append, Rust.extendFieldCode, Rust.extendAll, endedStmts, List.map_cons, List.map_nil]
      simp [hmt, hba, h0, Rust.bytesCode, ended, stmtToks, Rust.letE, varToks, exprToks, minEnd, exprsToks,
        methToks, ident, flatAll, Node.flat, funcToks, stmtsToks, stmtEnd]

end Ublox.Quote
