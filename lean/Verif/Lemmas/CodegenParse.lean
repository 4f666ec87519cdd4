import Verif.Lemmas.Link

/-!
# The generated code for the list of packets
-/

namespace Ublox.Rust
open Spec

variable {W E : Type} (x : Externs W E)

theorem arms_guard_skip {p : Pat} {g e : Expr} {v : V W E} {arms : List Arm} {env : Env W E}
    (hp : matchPat x p v = .ok none) :
    evalArms x v (.guarded p g e :: arms) env = evalArms x v arms env := by
  simp only [evalArms]
  rw [bind_ok (env' := env) (a := none) (by rw [hp]; rfl)]

theorem arms_guard {p : Pat} {g e : Expr} {v : V W E} {arms : List Arm} {env : Env W E} {rg : R Bool}
    {r : R (V W E)} (hp : matchPat x p v = .ok (some [])) (hg : g.eval x env = Ev.lift (V.bool <$> rg) env)
    (he : e.eval x env = Ev.lift r env) :
    evalArms x v (.guarded p g e :: arms) env =
      (rg >>= fun b => if b then Ev.lift r env else evalArms x v arms env) := by
  simp only [evalArms]
  rw [bind_ok (env' := env) (a := some []) (by rw [hp]; rfl)]
  have h1 : Ev.scoped (((pure () : Ev W E Unit) >>= fun _ => g.eval x >>= fun v => Ev.lift v.asBool) :
      Ev W E Bool) env = Ev.lift rg env := by
    refine scoped_lift ((bind_ok (pure_run () env)).trans ((map_lift _ hg).trans ?_))
    cases rg <;> rfl
  have h2 : Ev.scoped (((pure () : Ev W E Unit) >>= fun _ => e.eval x) : Ev W E (V W E)) env =
      Ev.lift r env := scoped_lift ((bind_ok (pure_run () env)).trans he)
  refine (bind_lift (m := Ev.scoped (((pure () : Ev W E Unit) >>= fun _ => g.eval x >>= fun v =>
    Ev.lift v.asBool) : Ev W E Bool)) h1).trans ?_
  cases rg with
  | error q => rfl
  | ok b =>
    cases b with
    | false => rfl
    | true => exact h2

theorem arms_bind {p : Pat} {e : Expr} {v w : V W E} {y : Var} {arms : List Arm} {env : Env W E}
    {r : R (V W E)} (hp : matchPat x p v = .ok (some [(y, w)]))
    (he : e.eval x ((y, w) :: env) = Ev.lift r ((y, w) :: env)) :
    evalArms x v (.plain p e :: arms) env = Ev.lift r env := by
  simp only [evalArms]
  rw [bind_ok (env' := env) (a := some [(y, w)]) (by rw [hp]; rfl)]
  have : Ev.scoped ((Ev.push y w >>= fun _ => (pure () : Ev W E Unit)) >>= fun _ => e.eval x) env =
      Ev.lift r env := by
    unfold Ev.scoped
    rw [bind_ok (env' := (y, w) :: env) (a := ()) (by
      rw [bind_ok (env' := (y, w) :: env) (a := ()) rfl]; rfl), he]
    cases r with
    | error p => rfl
    | ok a =>
      rw [lift_ok]
      simp only [List.length_cons, Nat.add_sub_cancel_left, List.drop_succ_cons, List.drop_zero]
      rfl
  exact this

theorem eval_isOk {f : Func} {es : List Expr} {env : Env W E} {r : R (Except ParserError Unit)}
    (h : (Expr.call f es).eval x env = Ev.lift (resultV <$> r) env) :
    (Expr.meth (.call f es) .isOk []).eval x env = Ev.lift (V.bool <$> (fun q => q.isOk) <$> r) env := by
  cases r with
  | error p =>
    simp only [Expr.eval] at h ⊢
    exact bind_error h
  | ok q =>
    refine eval_meth x h ?_ (fun y hy => by cases hy)
    cases q <;> rfl

/-! ## `match_packet` -/

theorem matchPat_consts {p q : String} {a b m n : UInt8} (hp : x.const p = .ok (.byte m))
    (hq : x.const q = .ok (.byte n)) :
    matchPat x (.consts p q) (.pair (.byte a) (.byte b)) =
      .ok (if a = m ∧ b = n then some [] else none) := by
  simp only [matchPat, hp, hq]
  rfl

theorem matchArms (r : Syn.RecvPackets) (cls msgId : UInt8) (payload : Bytes) :
    ∀ {ds : List Ublox.PackDesc}, ParseLinks x ds →
    evalArms x (.pair (.byte cls) (.byte msgId))
      ((ds.map (·.name)).map (fun name => .guarded (.consts (name ++ "::CLASS") (name ++ "::ID"))
          (.meth (.call (.user ("<" ++ name ++ "Ref>::validate")) [.var .payload]) .isOk [])
          (.block [.tail (.ok (.ctor (r.unionEnumName ++ "::" ++ name)
            (.ctor (name ++ "Ref") (.var .payload))))])) ++
        [.plain .wild (.ok (.ctor (r.unionEnumName ++ "::Unknown") (.struct r.unknownTy
          [("payload", .var .payload), ("class", .var .class_), ("msg_id", .var .msgId)])))])
      [(.payload, .bytes payload), (.msgId, .byte msgId), (.class_, .byte cls)] =
    Ev.lift (matchV r <$> matchPacketIn cls msgId payload ds)
      [(.payload, .bytes payload), (.msgId, .byte msgId), (.class_, .byte cls)]
  | [], _ => by
    refine arms_take x rfl ?_
    rw [eval_ok x (eval_ctor x _ (eval_struct x _ (rs := [.ok (.bytes payload), .ok (.byte cls),
      .ok (.byte msgId)]) (.cons (eval_var x rfl) (.cons (eval_var x rfl) (.cons (eval_var x rfl) .nil)))))]
    rfl
  | d :: ds, hx => by
    have hx' : ParseLinks x ds := ⟨fun d h => hx.cls d (.tail _ h), fun d h => hx.id d (.tail _ h),
      fun d h => hx.maxLen d (.tail _ h), fun d h => hx.validate d (.tail _ h), hx.maxU16⟩
    have hm := matchPat_consts x (a := cls) (b := msgId) (hx.cls d (.head _)) (hx.id d (.head _))
    simp only [List.map_cons, List.cons_append, matchPacketIn]
    by_cases h : cls = d.cls ∧ msgId = d.id
    · rw [if_pos h] at hm
      rw [if_pos h]
      have hcall : (Expr.call (.user ("<" ++ d.name ++ "Ref>::validate")) [.var .payload]).eval x
          [(.payload, .bytes payload), (.msgId, .byte msgId), (.class_, .byte cls)] =
          Ev.lift (resultV <$> d.validate payload)
          [(.payload, .bytes payload), (.msgId, .byte msgId), (.class_, .byte cls)] := by
        rw [eval_call (rs := [.ok (.bytes payload)]) _ _ (.cons (eval_var _ rfl) .nil),
          ← hx.validate d (.head _) payload]
        rfl
      have hbody : (Expr.block [.tail (.ok (.ctor (r.unionEnumName ++ "::" ++ d.name)
            (.ctor (d.name ++ "Ref") (.var .payload))))]).eval x
          [(.payload, .bytes payload), (.msgId, .byte msgId), (.class_, .byte cls)] =
          Ev.lift (.ok (matchV r (.ok (.known d payload))))
          [(.payload, .bytes payload), (.msgId, .byte msgId), (.class_, .byte cls)] := by
        simp only [Expr.eval]
        refine scoped_lift ?_
        rw [stmts_tail]
        exact (eval_ok x (eval_ctor x _ (eval_ctor x _ (eval_var x rfl)))).trans rfl
      rw [arms_guard x hm (eval_isOk x hcall) hbody]
      cases d.validate payload with
      | error p => rfl
      | ok q =>
        cases q with
        | ok u => rfl
        | error e => exact matchArms r cls msgId payload hx'
    · rw [if_neg h] at hm
      rw [if_neg h, arms_guard_skip x hm]
      exact matchArms r cls msgId payload hx'

theorem matchPacketCode_call {r : Syn.RecvPackets} {ds : List Ublox.PackDesc}
    (hr : r.allPackets = ds.map (·.name)) (hx : ParseLinks x ds) (cls msgId : UInt8) (payload : Bytes) :
    (matchPacketCode r).call x [.byte cls, .byte msgId, .bytes payload] =
      matchV r <$> matchPacketIn cls msgId payload ds := by
  rw [call_eq x rfl]
  show resultOf <$> evalStmts x [.tail _] [(.payload, .bytes payload), (.msgId, .byte msgId),
    (.class_, .byte cls)] = _
  rw [stmts_tail, eval_match x (v := .pair (.byte cls) (.byte msgId)), hr, matchArms x r cls msgId payload hx]
  · cases matchPacketIn cls msgId payload ds <;> rfl
  · exact (eval_pair x (eval_var x rfl) (eval_var x rfl)).trans rfl

/-! ## `class_and_msg_id` -/

theorem prefix_ne {u a b : String} (h : a ≠ b) : u ++ "::" ++ a ≠ u ++ "::" ++ b :=
  fun he => h (append_cancel he)

/-- Arms that only look at the constructor. -/
theorem ctorArms {u n : String} {w : V W E} {body : String → Expr} {rest : List Arm} {env : Env W E}
    {r : R (V W E)} (hb : (body n).eval x env = Ev.lift r env) : ∀ {names : List String}, n ∈ names →
    evalArms x (.data (u ++ "::" ++ n) [("0", w)])
      (names.map (fun name => .plain (.ctor (u ++ "::" ++ name) none) (body name)) ++ rest) env = Ev.lift r env
  | m :: names, hm => by
    simp only [List.map_cons, List.cons_append]
    by_cases h : m = n
    · subst h
      refine arms_take x ?_ hb
      simp only [matchPat, if_true]
    · rw [arms_skip x (by simp only [matchPat, if_neg (prefix_ne (u := u) h)])]
      refine ctorArms hb ?_
      cases hm with
      | head => exact absurd rfl h
      | tail _ hm => exact hm

theorem ctorArms_skip {u n : String} {w : V W E} {y : Option Var} {body : String → Expr} {rest : List Arm}
    {env : Env W E} : ∀ {names : List String}, n ∉ names →
    evalArms x (.data (u ++ "::" ++ n) [("0", w)])
      (names.map (fun name => .plain (.ctor (u ++ "::" ++ name) y) (body name)) ++ rest) env =
    evalArms x (.data (u ++ "::" ++ n) [("0", w)]) rest env
  | [], _ => rfl
  | m :: names, hm => by
    simp only [List.map_cons, List.cons_append]
    have h : m ≠ n := fun h => hm (h ▸ .head _)
    have hp : matchPat x (.ctor (u ++ "::" ++ m) y) (.data (u ++ "::" ++ n) [("0", w)]) = .ok none := by
      cases y <;> simp only [matchPat, if_neg (prefix_ne (u := u) h)]
    rw [arms_skip x hp]
    exact ctorArms_skip fun h => hm (.tail _ h)

theorem classAndMsgIdCode_call {r : Syn.RecvPackets} {ds : List Ublox.PackDesc}
    (hr : r.allPackets = ds.map (·.name)) (hx : ParseLinks x ds) (hu : "Unknown" ∉ ds.map (·.name))
    {q : PacketRef} (hq : ∀ d p, q = .known d p → d ∈ ds) :
    (classAndMsgIdCode r).call x [packetRefV r q] =
      .ok (.pair (.byte q.classAndMsgId.1) (.byte q.classAndMsgId.2)) := by
  refine call_self x rfl rfl ?_
  rw [eval_match x (v := packetRefV r q) (by rw [eval_deref]; exact eval_var x rfl), hr]
  cases q with
  | known d p =>
    have hd := hq d p rfl
    refine ctorArms x ?_ (List.mem_map_of_mem hd)
    rw [eval_pair x (eval_const x _ _) (eval_const x _ _), hx.cls d hd, hx.id d hd]
    rfl
  | unknown p c m =>
    have hun : r.unionEnumName ++ "::Unknown" = r.unionEnumName ++ "::" ++ "Unknown" := by
      rw [String.append_assoc]; rfl
    unfold packetRefV
    dsimp only
    rw [hun, ctorArms_skip x hu]
    refine arms_bind x (y := .pack) (by simp only [matchPat, if_true]; rfl) ?_
    rw [eval_pair x (eval_field x _ (eval_var x rfl)) (eval_field x _ (eval_var x rfl))]
    rfl

/-! ## `MAX_PAYLOAD_LEN` -/

theorem maxU16Code_call (a b : UInt16) :
    maxU16Code.call x [rawV (.u16 a), rawV (.u16 b)] = .ok (rawV (.u16 (if a < b then b else a))) := by
  rw [call_eq x rfl]
  show resultOf <$> evalStmts x [.tail _] [(.b_, rawV (.u16 b)), (.a_, rawV (.u16 a))] = _
  rw [stmts_tail, eval_index x (eval_array x (rs := [.ok (rawV (.u16 a)), .ok (rawV (.u16 b))])
    (.cons (eval_var x rfl) (.cons (eval_var x rfl) .nil)))
    (eval_cast x _ (eval_paren x ▸ eval_bin x _ (eval_var x rfl) (eval_var x rfl)))]
  have hb : binV x.maxUsize .lt (rawV (.u16 a) : V W E) (rawV (.u16 b)) = .ok (.bool (decide (a < b))) := rfl
  simp only [okBind', hb]
  by_cases h : a < b
  · rw [if_pos h, decide_eq_true h]; rfl
  · rw [if_neg h, decide_eq_false h]; rfl

theorem max_eq {a b : Nat} (ha : a < 65536) (hb : b < 65536) :
    (if UInt16.ofNat a < UInt16.ofNat b then UInt16.ofNat b else UInt16.ofNat a) =
      UInt16.ofNat (max a b) := by
  have h1 : (UInt16.ofNat a).toNat = a := (UInt16.toNat_ofNat' ..).trans (Nat.mod_eq_of_lt ha)
  have h2 : (UInt16.ofNat b).toNat = b := (UInt16.toNat_ofNat' ..).trans (Nat.mod_eq_of_lt hb)
  by_cases h : a < b
  · rw [if_pos (UInt16.lt_iff_toNat_lt.mpr (by rw [h1, h2]; exact h)), Nat.max_eq_right (Nat.le_of_lt h)]
  · rw [if_neg (fun h' => h (by have := UInt16.lt_iff_toNat_lt.mp h'; rwa [h1, h2] at this)),
      Nat.max_eq_left (Nat.le_of_not_lt h)]

theorem maxPayloadLen_eval : ∀ {ds : List Ublox.PackDesc}, ParseLinks x ds →
    (∀ d ∈ ds, d.maxPayloadLen < 65536) → ∀ (e : Expr) (n : Nat), n < 65536 →
    e.eval x [] = Ev.lift (.ok (rawV (.u16 (UInt16.ofNat n)))) [] →
    ((ds.map (·.name)).foldl (fun prev name =>
      .call (.user "max_u16") [.const (name ++ "::MAX_PAYLOAD_LEN"), prev]) e).eval x [] =
    Ev.lift (.ok (rawV (.u16 (UInt16.ofNat (ds.foldl (fun prev d => max d.maxPayloadLen prev) n))))) []
  | [], _, _, e, n, _, he => he
  | d :: ds, hx, hlt, e, n, hn, he => by
    have hx' : ParseLinks x ds := ⟨fun d h => hx.cls d (.tail _ h), fun d h => hx.id d (.tail _ h),
      fun d h => hx.maxLen d (.tail _ h), fun d h => hx.validate d (.tail _ h), hx.maxU16⟩
    simp only [List.map_cons, List.foldl_cons]
    refine maxPayloadLen_eval hx' (fun d h => hlt d (.tail _ h)) _ _ ?_ ?_
    · exact Nat.max_lt.mpr ⟨hlt d (.head _), hn⟩
    · rw [eval_call (rs := [x.const (d.name ++ "::MAX_PAYLOAD_LEN"), _]) _ _
        (.cons (eval_const x _ _) (.cons he .nil)), hx.maxLen d (.head _)]
      have h5 : (seqR [Except.ok (rawV (.u16 (UInt16.ofNat d.maxPayloadLen))),
          .ok (rawV (.u16 (UInt16.ofNat n)))] >>= callV x (.user "max_u16")) =
          x.call "max_u16" [rawV (.u16 (UInt16.ofNat d.maxPayloadLen)), rawV (.u16 (UInt16.ofNat n))] := by
        simp only [seqR, okBind', pure, Except.pure, callV]
      rw [h5, hx.maxU16, maxU16Code_call, max_eq (hlt d (.head _)) hn]

theorem maxPayloadLen_const {r : Syn.RecvPackets} {ds : List Ublox.PackDesc}
    (hr : r.allPackets = ds.map (·.name)) (hx : ParseLinks x ds) (hlt : ∀ d ∈ ds, d.maxPayloadLen < 65536) :
    (generateParseCode r).maxPayloadLen.eval x =
      .ok (rawV (.u16 (UInt16.ofNat (ds.foldl (fun prev d => max d.maxPayloadLen prev) 0)))) := by
  unfold ConstDecl.eval generateParseCode maxPayloadLenExpr
  dsimp only
  rw [hr, maxPayloadLen_eval x hx hlt (.lit 0 .u16) 0 (by decide) (by simp only [Expr.eval]; rfl)]
  rfl


/-! ## The list of packets in a program -/

theorem parseX_links {base : Externs W E} {cs : List Conv} {ds : List Ublox.PackDesc}
    (hn : (ds.map (·.name)).Nodup)
    (hv : ∀ d ∈ ds, ∀ payload, recvMethod base cs d "validate" [.bytes payload] =
      resultV <$> d.validate payload) :
    ParseLinks (parseX base cs ds) ds := by
  refine ⟨?_, ?_, ?_, ?_, ?_⟩
  · intro d hd
    have h := packetConst_find base hn hd (c := ⟨"const CLASS: u8", "CLASS", .lit d.cls.toNat .u8⟩)
      List.mem_cons_self
    rw [String.append_assoc] at h
    refine h.trans ?_
    show Except.ok (V.byte (UInt8.ofNat d.cls.toNat)) = _
    rw [UInt8.ofNat_toNat]
  · intro d hd
    have h := packetConst_find base hn hd (c := ⟨"const ID: u8", "ID", .lit d.id.toNat .u8⟩)
      (List.mem_cons_of_mem _ List.mem_cons_self)
    rw [String.append_assoc] at h
    refine h.trans ?_
    show Except.ok (V.byte (UInt8.ofNat d.id.toNat)) = _
    rw [UInt8.ofNat_toNat]
  · intro d hd
    have h := packetConst_find base hn hd
      (List.mem_cons_of_mem _ (List.mem_cons_of_mem _ (List.mem_cons_of_mem _ List.mem_cons_self)))
    rw [String.append_assoc] at h
    refine h.trans ?_
    unfold Ublox.PackDesc.maxPayloadLen packetCode
    dsimp only
    cases d.payloadLen <;> rfl
  · intro d hd payload
    have h1 : "<" ++ d.name ++ "Ref>::validate" ≠ "max_u16" := by
      intro h
      have h2 := congrArg (fun s => s.toList.head?) h
      simp at h2
    have h3 : (ds.find? fun e => "<" ++ e.name ++ "Ref>::validate" = "<" ++ d.name ++ "Ref>::validate") =
        some d := by
      refine find_of_unique' hd (by simp) ?_
      intro b hb hbe
      simp only [decide_eq_true_eq] at hbe
      exact List.inj_on_of_nodup_map hn hb hd (append_cancel (append_cancel_right hbe))
    simp only [parseX, if_neg h1, h3]
    exact hv d hd payload
  · intro a b
    rw [maxU16Code_call]
    exact maxU16Code_call base a b

end Ublox.Rust
