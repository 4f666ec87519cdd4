import Verif.Lemmas.Emit

/-!
# Evaluating the code generators, statement by statement
-/

namespace Ublox.Quote

open Code (Tk Name)

/-- Calls of the functions of a file -/
def callsOf (fs : List Fn) (depth : Nat) : Ctx := ⟨fun n => (findFn n fs).map fun _ => run fs depth n⟩

/-- Functions of `output.rs` -/
abbrev calls (depth : Nat) : Ctx := callsOf Gen.outputRs_fns depth

theorem run_val {fs : List Fn} {depth : Nat} {n : Name} {args : List V} {f : Fn} {v : V} {env : Env}
    (hf : findFn n fs = some f)
    (h : evalS (callsOf fs depth) f.body (bindParams f.params args) = .ok (.val v, env)) :
    run fs (depth + 1) n args = .ok v := by
  simp only [run, hf]
  simp only [callsOf] at h
  rw [h]

theorem run_ret {fs : List Fn} {depth : Nat} {n : Name} {args : List V} {f : Fn} {v : V} {env : Env}
    (hf : findFn n fs = some f)
    (h : evalS (callsOf fs depth) f.body (bindParams f.params args) = .ok (.ret v, env)) :
    run fs (depth + 1) n args = .ok v := by
  simp only [run, hf]
  simp only [callsOf] at h
  rw [h]

theorem run_panic {fs : List Fn} {depth : Nat} {n : Name} {args : List V} {f : Fn}
    (hf : findFn n fs = some f)
    (h : evalS (callsOf fs depth) f.body (bindParams f.params args) = .error .panic) :
    run fs (depth + 1) n args = .error .panic := by
  simp only [run, hf]
  simp only [callsOf] at h
  rw [h]

/-- A function of the file returns these tokens. -/
def Emits (fs : List Fn) (depth : Nat) (n : Name) (args : List V) (ts : List Tk) : Prop :=
  ∃ ns, run fs depth n args = .ok (.toks ns) ∧ flatAll ns = ts

theorem Emits.emitted {fs : List Fn} {n : Name} {args : List V} {ts : List Tk} (h : Emits fs 3 n args ts) :
    emitted fs n args = .ok ts := by
  obtain ⟨ns, h, ht⟩ := h
  simp only [Quote.emitted, h, ht]

variable {c : Ctx} {p : Pt} {e : Ex} {r b : Sts} {env env' env'' bs : Env} {v : V} {vs ws : List V} {res : Res}

theorem step_let (h : eval c e env = .ok (.val v, env')) (hb : bindPat p v = some bs)
    (hr : evalS c r (bs ++ env') = res) : evalS c (.let_ p e r) env = res := by
  rw [evalS, h]
  simp only [bindV, hb, hr]

theorem step_name {x : Name} (h : eval c e env = .ok (.val v, env'))
    (hr : evalS c r ((x, v) :: env') = res) : evalS c (.let_ (.name x) e r) env = res :=
  step_let h rfl hr

theorem step_semi (h : eval c e env = .ok (.val v, env')) (hr : evalS c r env' = res) :
    evalS c (.semi e r) env = res := by
  rw [evalS, h]
  simp only [bindV, hr]

theorem step_panic (h : eval c e env = .error s) : evalS c (.semi e r) env = .error s := by
  rw [evalS, h]
  simp only [bindV]

theorem step_for (h : eval c e env = .ok (.val (.list vs), env'))
    (hl : loop (forBody p fun env => evalS c b env) vs env' = .ok (.val .unit, env''))
    (hr : evalS c r env'' = res) : evalS c (.semi (.for_ p e b) r) env = res := by
  refine step_semi (v := .unit) (env' := env'') ?_ hr
  rw [eval, h]
  simp only [bindV, hl]

theorem eval_map {x : Name} {body : Ex} (h : eval c e env = .ok (.val (.list vs), env'))
    (hm : mapValues (fun a => eval c body ((x, a) :: env')) vs = .ok ws) :
    eval c (.methFn e i!"map" .nil [x] body) env = .ok (.val (.list ws), env') := by
  rw [eval, h]
  simp only [bindV, evals, bindParams, List.cons_append, List.nil_append, closureOf, hm]
  rfl

/-- The result is these tokens. -/
def Gives (r : Res) (ts : List Tk) : Prop := ∃ ns env, r = .ok (.val (.toks ns), env) ∧ flatAll ns = ts

theorem gives {r : Res} {ns : List Node} {ts : List Tk} (h : r = .ok (.val (.toks ns), env))
    (ht : flatAll ns = ts) : Gives r ts := ⟨ns, env, h, ht⟩

theorem Gives.emits {fs : List Fn} {depth : Nat} {n : Name} {args : List V} {f : Fn} {ts : List Tk}
    (h : Gives (evalS (callsOf fs depth) f.body (bindParams f.params args)) ts) (hf : findFn n fs = some f) :
    Emits fs (depth + 1) n args ts := by
  obtain ⟨ns, env, h, ht⟩ := h
  exact ⟨ns, run_val hf h, ht⟩

/-- A closure on the elements of a list -/
theorem mapValues_toks {α : Type} {f : V → Res} {g : α → V} {ts : α → List Tk} {l : List α}
    (hf : ∀ a ∈ l, Gives (f (g a)) (ts a)) :
    ∃ rounds : List (List Node), mapValues f (l.map g) = .ok (rounds.map .toks) ∧ rounds.map flatAll = l.map ts := by
  induction l with
  | nil => exact ⟨[], rfl, rfl⟩
  | cons a l ih =>
    obtain ⟨rounds, h₁, h₂⟩ := ih fun b hb => hf b (List.mem_cons_of_mem _ hb)
    obtain ⟨ns, env, h₃, h₄⟩ := hf a (by simp)
    refine ⟨ns :: rounds, ?_, by simp [h₂, h₄]⟩
    rw [List.map_cons, mapValues, h₃]
    simp only [h₁]
    rfl

/-- `let y = fields.iter().map(|x| body);` -/
theorem gives_map {docs : Syn.PackField → List Nat} {fs : List Syn.PackField} {x y : Name} {body : Ex}
    {ts : Syn.PackField → List Tk} {out : List Tk}
    (h : eval c e env = .ok (.val (.list ((fs.map (fieldV docs)).map .packField)), env))
    (hm : ∀ f ∈ fs, Gives (eval c body ((x, .packField (fieldV docs f)) :: env)) (ts f))
    (hr : ∀ rounds : List (List Node), rounds.map flatAll = fs.map ts →
      Gives (evalS c r ((y, .list (rounds.map .toks)) :: env)) out) :
    Gives (evalS c (.let_ (.name y) (.methFn e i!"map" .nil [x] body) r) env) out := by
  rw [List.map_map] at h
  obtain ⟨rounds, h₁, h₂⟩ := mapValues_toks (f := fun a => eval c body ((x, a) :: env))
    (g := V.packField ∘ fieldV docs) hm
  obtain ⟨ns, env₂, h₃, h₄⟩ := hr rounds h₂
  exact ⟨ns, env₂, step_name (eval_map h h₁) h₃, h₄⟩

theorem eval_or {a b : Ex} {x y : Bool} (ha : eval c a env = .ok (.val (.bool x), env))
    (hb : eval c b env = .ok (.val (.bool y), env)) :
    eval c (.bin .or a b) env = .ok (.val (.bool (x || y)), env) := by
  rw [eval, ha]
  cases x
  · simpa [bindV] using hb
  · simp [bindV]

theorem eval_ite_true {a : Ex} {x : Bool} {t u : Sts} {o : Out} {env₁ env₂ : Env}
    (ha : eval c a env = .ok (.val (.bool x), env)) (hx : x = true) (ht : evalS c t env = .ok (o, env₁))
    (he : env₁.drop (env₁.length - env.length) = env₂) : eval c (.ite a t u) env = .ok (o, env₂) := by
  rw [eval, ha, hx]
  simp [bindV, ht, scope, he]

theorem eval_ite_false {a : Ex} {x : Bool} {t u : Sts} {o : Out} {env₁ env₂ : Env}
    (ha : eval c a env = .ok (.val (.bool x), env)) (hx : x = false) (ht : evalS c u env = .ok (o, env₁))
    (he : env₁.drop (env₁.length - env.length) = env₂) : eval c (.ite a t u) env = .ok (o, env₂) := by
  rw [eval, ha, hx]
  simp [bindV, ht, scope, he]

theorem joinToks_nil (l : List (List Tk)) : joinToks [] l = l.flatten := by
  induction l with
  | nil => rfl
  | cons a l ih =>
    cases l with
    | nil => simp [joinToks]
    | cons b l => rw [joinToks, ih]; simp

theorem flatRounds_eq (l : List (List Node)) : flatRounds l = l.map flatAll := by
  induction l with
  | nil => rfl
  | cons a l ih => rw [flatRounds, ih]; rfl

theorem eval_ifLet_none {a : Ex} {t u : Sts} {o : Out} {env₁ env₂ : Env}
    (ha : eval c a env = .ok (.val v, env)) (hb : bindPat p v = none) (ht : evalS c u env = .ok (o, env₁))
    (he : env₁.drop (env₁.length - env.length) = env₂) : eval c (.ifLet p a t u) env = .ok (o, env₂) := by
  rw [eval, ha]
  simp [bindV, hb, ht, scope, he]

theorem eval_ifLet_none_error {a : Ex} {t u : Sts} {s : Stop}
    (ha : eval c a env = .ok (.val v, env)) (hb : bindPat p v = none) (ht : evalS c u env = .error s) :
    eval c (.ifLet p a t u) env = .error s := by
  rw [eval, ha]
  simp [bindV, hb, ht, scope]

theorem step_let_error {s : Stop} (h : eval c e env = .error s) : evalS c (.let_ p e r) env = .error s := by
  rw [evalS, h]
  simp only [bindV]

theorem eval_assert {a : Ex} {x : Bool} (ha : eval c a env = .ok (.val (.bool x), env)) :
    eval c (.assert a) env = if x then .ok (.val .unit, env) else .error .panic := by
  rw [eval, ha]
  rfl

theorem eval_eq {a b : Ex} {x y : Nat} {s t : Name} (ha : eval c a env = .ok (.val (.num x s), env))
    (hb : eval c b env = .ok (.val (.num y t), env)) :
    eval c (.bin .eq a b) env = .ok (.val (.bool (x == y)), env) := by
  rw [eval, ha]
  simp [bindV, hb, andThen, binOp, V.same, Except.map]

theorem eval_sub {a b : Ex} {x y : Nat} {s t : Name} (ha : eval c a env = .ok (.val (.num x s), env))
    (hb : eval c b env = .ok (.val (.num y t), env)) (h : y ≤ x) :
    eval c (.bin .sub a b) env = .ok (.val (.num (x - y) (numTy s t)), env) := by
  rw [eval, ha]
  simp [bindV, hb, andThen, binOp, h]

theorem forBody_eq {body : Env → Res} {o : Out} {env₁ env₂ : Env} (hb : bindPat p v = some bs)
    (h : body (bs ++ env) = .ok (o, env₁)) (he : env₁.drop (env₁.length - env.length) = env₂) :
    forBody p body v env = .ok (o, env₂) := by
  simp [forBody, hb, h, scope, he]

theorem forBody_error {body : Env → Res} {s : Stop} (hb : bindPat p v = some bs)
    (h : body (bs ++ env) = .error s) : forBody p body v env = .error s := by
  simp [forBody, hb, h, scope]

/-- Values that are results of `quote!`, and their tokens -/
def Toks (vs : List V) (ts : List Tk) : Prop :=
  ∃ rounds : List (List Node), vs = rounds.map V.toks ∧ (rounds.map flatAll).flatten = ts

theorem Toks.nil : Toks [] [] := ⟨[], rfl, rfl⟩

theorem Toks.snoc {vs : List V} {ts us : List Tk} {ns : List Node} (h : Toks vs ts) (hn : ts ++ flatAll ns = us) :
    Toks (vs ++ [.toks ns]) us := by
  obtain ⟨rounds, rfl, rfl⟩ := h
  exact ⟨rounds ++ [ns], by simp, by simpa using hn⟩

theorem Toks.same {vs : List V} {ts us : List Tk} (h : Toks vs ts) (hn : ts = us) : Toks vs us := hn ▸ h

/-- A repetition of such values -/
theorem Toks.flat {vs : List V} {ts : List Tk} (h : Toks vs ts) :
    joinToks [] (flatRounds (vs.map fun v => [V.node v])) = ts := by
  obtain ⟨rounds, rfl, rfl⟩ := h
  rw [joinToks_nil, flatRounds_eq, List.map_map, List.map_map]
  refine congrArg _ (List.map_congr_left fun r _ => ?_)
  simp [V.node, flatAll, Node.flat]

/-- A loop whose rounds have a known effect -/
theorem loop_fold {α β : Type} {body : V → Env → Res} {st : β → Env} {step : β → α → β} {g : α → V} {l : List α}
    (h : ∀ a ∈ l, ∀ b, ∃ v, body (g a) (st b) = .ok (.val v, st (step b a))) (b : β) :
    loop body (l.map g) (st b) = .ok (.val .unit, st (l.foldl step b)) := by
  induction l generalizing b with
  | nil => rfl
  | cons a l ih =>
    obtain ⟨v, hv⟩ := h a (by simp) b
    rw [List.map_cons, loop, hv]
    exact ih (fun a' ha' b' => h a' (List.mem_cons_of_mem _ ha') b') _

theorem foldl_snoc {α β : Type} (f : α → β) (l : List α) (b : List β) :
    l.foldl (fun acc a => acc ++ [f a]) b = b ++ l.map f := by
  induction l generalizing b with
  | nil => simp
  | cons a l ih => simp [ih]

/-- A repetition of what `quote!` returned -/
theorem flatRounds_toks (rounds : List (List Node)) :
    flatRounds ((rounds.map V.toks).map fun v => [V.node v]) = rounds.map flatAll := by
  rw [flatRounds_eq, List.map_map, List.map_map]
  refine List.map_congr_left fun r _ => ?_
  simp [V.node, flatAll, Node.flat]

end Ublox.Quote
