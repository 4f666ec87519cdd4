import Verif.Lemmas.EvalParser
import Verif.Lemmas.Code
import Verif.Spec.Client

/-!
# The functions of `ublox/src/parser.rs` that call each other
-/

namespace Ublox.Code

open UnderlyingBuffer

variable {T P : Type} [UnderlyingBuffer T] (M : Nat) (D : Dispatch P) (rounds : Nat)

/-- The functions of the file; calls are nested at most so deeply. -/
abbrev file (depth : Nat) (range : Bool) (ty f : Name) (args : List (V T P)) : O (V T P × V T P) :=
  run Gen.parserRs_code M D rounds depth range ty f args

/-- The context in which they are called. -/
abbrev ctx (depth : Nat) (me : Name) : Ctx T P := ⟨M, D, me, rounds, run Gen.parserRs_code M D rounds depth⟩

theorem call_eq {k : Nat} {range : Bool} {ty f : Name} {args : List (V T P)} {r : O (V T P × V T P)} {fn : Fn}
    (h : lookup Gen.parserRs_code range ty f = some fn) (hr : runFn (ctx M D rounds k ty) fn args = r) :
    run Gen.parserRs_code M D rounds (k + 1) range ty f args = r := by
  rw [run, h]
  exact hr

section

attribute [local irreducible] run lift

theorem link_dual (k : Nat) (me : Name) : DualOk (ctx (T := T) M D rounds (k + 1) me) where
  index d i := call_eq M D rounds (k := k) (by kernel_rfl) (dual_index _ d i)
  new b bs := call_eq M D rounds (k := k) (by kernel_rfl) (dual_new _ b bs rfl)
  len d := call_eq M D rounds (k := k) (by kernel_rfl) (dual_len _ d)
  drain d n := call_eq M D rounds (k := k) (by kernel_rfl) (dual_drain _ d n)
  can d n m := call_eq M D rounds (k := k) (by kernel_rfl) (dual_canDrainAndTake _ d n m)
  peek d n m := call_eq M D rounds (k := k) (by kernel_rfl) (dual_peekRaw _ d n m)
  take d n := call_eq M D rounds (k := k) (by kernel_rfl) (dual_take _ d n)

theorem link_dual2 (k : Nat) (me : Name) : DualOk2 (ctx (T := T) M D rounds (k + 2) me) where
  toDualOk := link_dual M D rounds (k + 1) me
  clear d := call_eq M D rounds (k := (k + 1)) (by kernel_rfl) (dual_clear (link_dual M D rounds k _) d)
  lost d := call_eq M D rounds (k := (k + 1)) (by kernel_rfl) (dual_lost (link_dual M D rounds k _) d)

theorem link_iter (k : Nat) (me : Name) : IterOk (ctx (T := T) M D rounds (k + 2) me) where
  toDualOk2 := link_dual2 M D rounds k me
  calcNew := call_eq M D rounds (k := (k + 1)) (by kernel_rfl) (calc_new rfl)
  calcUpdate c bs := call_eq M D rounds (k := (k + 1)) (by kernel_rfl) (calc_update c bs)
  calcResult c := call_eq M D rounds (k := (k + 1)) (by kernel_rfl) (calc_result c)

theorem link_next (k : Nat) (me : Name) : NextOk (ctx (T := T) M D rounds (k + 3) me) where
  toIterOk := link_iter M D rounds (k + 1) me
  findSync it := call_eq M D rounds (k := (k + 2)) (by kernel_rfl) (iter_findSync (link_dual M D rounds (k + 1) _) it)
  extract it n := call_eq M D rounds (k := (k + 2)) (by kernel_rfl) (iter_extract (link_iter M D rounds k _) it n)

theorem file_next (k : Nat) (it : ParserIter T) :
    file M D rounds (k + 4) false i!"ParserIter" i!"next" [iterV it] =
      nextRun (ctx M D rounds (k + 3) i!"ParserIter") rounds it :=
  call_eq M D rounds (k := k + 3) (by kernel_rfl) (iter_next it)

theorem file_consume (k : Nat) (p : Parser T) (bs : Bytes) :
    andThen (file M D rounds (k + 2) false i!"Parser" i!"consume" [parserV p, .bytes bs]) (fun r => .ok r.1) =
      lift (p.consume M bs) fun it => .ok (iterV it) := by
  rw [file, call_eq M D rounds (k := k + 1) (fn := Gen.parserRs_Parser_consume) (by kernel_rfl) rfl]
  exact parser_consume (link_dual M D rounds k _) p bs

theorem file_drop (k : Nat) (d : DualBuffer T) :
    file (P := P) M D rounds (k + 1) false i!"DualBuffer" i!"drop" [dualV d] =
      lift d.dropDual fun b => .ok (.unit, dualV { d with buf := b }) :=
  call_eq M D rounds (by kernel_rfl) (dual_drop _ d)

theorem next_some {it : ParserIter T} {r : R (Option (Except ParserError P) × ParserIter T)}
    (hr : ParserIter.next M D it = some r) :
    ∃ n, ∀ rounds, n ≤ rounds → ∀ depth, 4 ≤ depth →
      file M D rounds depth false i!"ParserIter" i!"next" [iterV it] =
        lift r fun r => .ok (answerV r.1, iterV r.2) := by
  obtain ⟨n, hn⟩ := nextRun_some hr
  refine ⟨n, fun rounds h depth hd => ?_⟩
  obtain ⟨k, rfl⟩ := Nat.exists_eq_add_of_le' hd
  rw [file_next]
  exact hn _ (link_next M D rounds k _) rfl rfl rounds h

theorem next_none {it : ParserIter T} (hr : ParserIter.next M D it = .none) {depth : Nat} (hd : 4 ≤ depth) :
    file (P := P) M D rounds depth false i!"ParserIter" i!"next" [iterV it] = .error .fuel := by
  obtain ⟨k, rfl⟩ := Nat.exists_eq_add_of_le' hd
  rw [file_next]
  exact nextRun_none (link_next M D rounds k _) hr rounds

end

/-! ## A client -/

open Spec

theorem bind_eq {α β : Type} (x : O α) (k : α → O β) : x >>= k = andThen x k := by cases x <;> rfl
theorem map_eq {α β : Type} (x : O α) (k : α → β) : k <$> x = andThen x fun a => .ok (k a) := by cases x <;> rfl
theorem pure_eq {α : Type} (a : α) : (pure a : O α) = .ok a := rfl

theorem client_nexts {n : Nat} {it : ParserIter T}
    {r : R (List (Option (Except ParserError P)) × ParserIter T)} (hr : Parser.callNext M D n it = some r) :
    ∃ m, ∀ rounds, m ≤ rounds → ∀ depth, 4 ≤ depth →
      Client.nexts (file M D rounds depth false) n (iterV it) =
        lift r fun r => .ok (r.1.map answerV, iterV r.2) := by
  induction n generalizing it r with
  | zero =>
    cases hr
    exact ⟨0, fun _ _ _ _ => rfl⟩
  | succ n ih =>
    rw [Parser.callNext] at hr
    cases h1 : ParserIter.next M D it with
    | none => rw [h1] at hr; cases hr
    | some a =>
      rw [h1] at hr
      obtain ⟨m, hm⟩ := next_some M D h1
      cases a with
      | error p =>
        cases hr
        refine ⟨m, fun rounds h depth hd => ?_⟩
        rw [Client.nexts, hm rounds h depth hd]
        rfl
      | ok a =>
        obtain ⟨a, it'⟩ := a
        simp only at hr
        cases h2 : Parser.callNext M D n it' with
        | none => rw [h2] at hr; cases hr
        | some b =>
          rw [h2] at hr
          obtain ⟨m', hm'⟩ := ih h2
          refine ⟨max m m', fun rounds h depth hd => ?_⟩
          rw [Client.nexts, hm rounds (by omega) depth hd]
          have := hm' rounds (by omega) depth hd
          cases b with
          | error p =>
            cases hr
            simp only [bind_eq, rust, this]
          | ok b =>
            obtain ⟨rs, it''⟩ := b
            cases hr
            simp only [bind_eq, rust, this, pure_eq, List.map_cons]

theorem client_feed {p : Parser T} {chunk : Bytes} {n : Nat} {leak : Bool}
    {r : R (List (Option (Except ParserError P)) × Parser T)} (hr : p.feedLeak M D chunk n leak = some r) :
    ∃ m, ∀ rounds, m ≤ rounds → ∀ depth, 4 ≤ depth →
      Client.feed (file M D rounds depth false) (parserV p) chunk n leak =
        lift r fun r => .ok (r.1.map answerV, parserV r.2) := by
  have hc : ∀ rounds depth, 4 ≤ depth → ∃ w,
      file M D rounds depth false i!"Parser" i!"consume" [parserV p, .bytes chunk] =
        lift (p.consume M chunk) fun it => .ok (iterV it, w) := by
    intro rounds depth hd
    obtain ⟨d, rfl⟩ := Nat.exists_eq_add_of_le' hd
    have := file_consume M D rounds (d + 2) p chunk
    cases hf : file M D rounds (d + 4) false i!"Parser" i!"consume" [parserV p, .bytes chunk] with
    | error e =>
      rw [hf] at this
      cases hc : p.consume M chunk with
      | error e' => rw [hc] at this; cases this; exact ⟨.unit, rfl⟩
      | ok it => rw [hc] at this; cases this
    | ok x =>
      obtain ⟨a, w⟩ := x
      rw [hf] at this
      cases hc : p.consume M chunk with
      | error e' => rw [hc] at this; cases this
      | ok it => rw [hc] at this; cases this; exact ⟨w, rfl⟩
  rw [Parser.feedLeak] at hr
  simp only [Client.feed, bind_eq]
  cases h1 : p.consume M chunk with
  | error e =>
    rw [h1] at hr
    cases hr
    refine ⟨0, fun rounds h depth hd => ?_⟩
    obtain ⟨w, hw⟩ := hc rounds depth hd
    rw [hw, h1]
    rfl
  | ok it =>
    rw [h1] at hr
    simp only at hr
    cases h2 : Parser.callNext M D n it with
    | none => rw [h2] at hr; cases hr
    | some a =>
      rw [h2] at hr
      obtain ⟨m, hm⟩ := client_nexts M D h2
      refine ⟨m, fun rounds h depth hd => ?_⟩
      obtain ⟨w, hw⟩ := hc rounds depth hd
      rw [hw, h1]
      simp only [rust, hm rounds h depth hd]
      cases a with
      | error e => cases hr; rfl
      | ok a =>
        obtain ⟨rs, it'⟩ := a
        simp only [rust] at hr ⊢
        cases leak with
        | true =>
          cases hr
          simp only [rust, pure_eq, parserV, if_true]
        | false =>
          obtain ⟨d, rfl⟩ := Nat.exists_eq_add_of_le' hd
          simp only [rust, map_eq, pure_eq, parserV, file_drop, Bool.false_eq_true, if_false] at hr ⊢
          cases h3 : it'.buf.dropDual with
          | error e => rw [h3] at hr; cases hr; rfl
          | ok b => rw [h3] at hr; cases hr; simp only [rust]

theorem client_session {h : List (Bytes × Nat × Bool)} {p : Parser T}
    {r : R (List (List (Option (Except ParserError P))) × Parser T)} (hr : p.sessionLeak M D h = some r) :
    ∃ m, ∀ rounds, m ≤ rounds → ∀ depth, 4 ≤ depth →
      Client.session (file M D rounds depth false) (parserV p) h =
        lift r fun r => .ok (r.1.map (·.map answerV), parserV r.2) := by
  induction h generalizing p r with
  | nil =>
    cases hr
    exact ⟨0, fun _ _ _ _ => rfl⟩
  | cons a h ih =>
    obtain ⟨chunk, n, leak⟩ := a
    rw [Parser.sessionLeak] at hr
    cases h1 : p.feedLeak M D chunk n leak with
    | none => rw [h1] at hr; cases hr
    | some a =>
      rw [h1] at hr
      obtain ⟨m, hm⟩ := client_feed M D h1
      cases a with
      | error e =>
        cases hr
        refine ⟨m, fun rounds h depth hd => ?_⟩
        rw [Client.session, hm rounds h depth hd]
        rfl
      | ok a =>
        obtain ⟨rs, p'⟩ := a
        simp only at hr
        cases h2 : p'.sessionLeak M D h with
        | none => rw [h2] at hr; cases hr
        | some b =>
          rw [h2] at hr
          obtain ⟨m', hm'⟩ := ih h2
          refine ⟨max m m', fun rounds h depth hd => ?_⟩
          rw [Client.session, hm rounds (by omega) depth hd]
          have := hm' rounds (by omega) depth hd
          cases b with
          | error e =>
            cases hr
            simp only [bind_eq, rust, this]
          | ok b =>
            obtain ⟨rss, q⟩ := b
            cases hr
            simp only [bind_eq, rust, this, pure_eq, List.map_cons]

end Ublox.Code
