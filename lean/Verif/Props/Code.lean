import Verif.Lemmas.GenCode
import Verif.Lemmas.CodeLink
import Verif.Props.ParserSafety
import Verif.Props.ParserDecode

/-!
# C91: the parser is the one written in `ublox/src/parser.rs`

`Gen.parserRs` is the text of the file without its tests; `Code.implsOf` finds the functions in a text and
`Code.run` executes them.  The theorems say that the functions of the text do what the model does.
-/

namespace Ublox.Props

open Spec Gen Code UnderlyingBuffer

/-- The functions in the text of `ublox/src/parser.rs:1-500` -/
def IsParserRs (prog : List Impl) : Prop := implsOf (Src.codes (String.join parserRs)) = some prog

theorem isParserRs_iff {prog : List Impl} : IsParserRs prog ↔ prog = parserRs_code := by
  rw [IsParserRs, parserRs_impls]
  exact ⟨fun h => (Option.some.inj h).symm, fun h => by rw [h]⟩

/-- **C91**: every function of the text can be read. -/
theorem c91_readable : ∃ prog, IsParserRs prog := ⟨_, parserRs_impls⟩

/-- The keywords of the language, and the macros that panic, are the words that they are meant to be. -/
theorem c91_keywords : keywords = [("fn", K.fn), ("impl", .impl), ("for", .for_), ("if", .if_), ("else", .else_),
    ("match", .match_), ("while", .while_), ("let", .let_), ("mut", .mut_), ("return", .return_),
    ("break", .break_), ("continue", .continue_), ("in", .in_), ("pub", .pub), ("struct", .struct),
    ("trait", .trait), ("type", .type), ("uns\x61fe", .uns), ("use", .use),
    ("const", .const), ("mod", .mod), ("enum", .enum), ("as", .as)].map (fun (s, k) => (Src.codes s, k)) ∧
    panics = ["panic", "unreachable", "unimplemented"].map Src.codes ∧ testCodes = Src.codes "test" ∧
    ubxCodes = Src.codes "ubx" := by
  decide +kernel

section

variable {T P : Type} [UnderlyingBuffer T] {prog : List Impl} (hp : IsParserRs prog) (M : Nat) (D : Dispatch P)
  (rounds : Nat) {depth : Nat} (hd : 4 ≤ depth)

include hp in
theorem fn_eq {range : Bool} {ty f : Name} {args : List (V T P)} {r : O (V T P × V T P)} {fn : Fn}
    (h : lookup parserRs_code range ty f = some fn)
    (hr : runFn ⟨M, D, ty, rounds, run parserRs_code M D rounds depth⟩ fn args = r) :
    run prog M D rounds (depth + 1) range ty f args = r := by
  rw [isParserRs_iff] at hp
  subst hp
  exact call_eq M D rounds h hr

attribute [local irreducible] run lift runFn

include hp hd

/-- **C91**: the functions of `Vec<u8>` as underlying buffer (`ublox/src/parser.rs:54-80`). -/
theorem c91_vec (v : VecBuf M) :
    let call := fun f args => run (T := T) prog M D rounds depth false i!"Vec" f (.bytes v.bytes :: args)
    call i!"clear" [] = .ok (.unit, .bytes (clear v).bytes) ∧
    call i!"len" [] = .ok (.int (len v), .bytes v.bytes) ∧
    call i!"max_capacity" [] = .ok (.int (maxCapacity v), .bytes v.bytes) ∧
    (∀ bs, call i!"extend_from_slice" [.bytes bs] =
      lift (extendFromSlice v bs) fun r => .ok (.int r.2, .bytes r.1.bytes)) ∧
    (∀ n, call i!"drain" [.int n] = lift (drain v n) fun r => .ok (.unit, .bytes r.bytes)) ∧
    (∀ x : UInt8, call i!"find" [.int x.toNat] = lift (find v x) fun r => .ok (optV r, .bytes v.bytes)) := by
  obtain ⟨k, rfl⟩ := Nat.exists_eq_add_of_le' hd
  exact ⟨fn_eq hp M D rounds (by kernel_rfl) (vec_clear (c := ctx M D rounds (k + 3) _) v), fn_eq hp M D rounds (by kernel_rfl) (vec_len (c := ctx M D rounds (k + 3) _) v),
    fn_eq hp M D rounds (by kernel_rfl) (vec_maxCapacity (c := ctx M D rounds (k + 3) _) v),
    fun bs => fn_eq hp M D rounds (by kernel_rfl) (vec_extend (c := ctx M D rounds (k + 3) _) v bs),
    fun n => fn_eq hp M D rounds (by kernel_rfl) (vec_drain (c := ctx M D rounds (k + 3) _) v n),
    fun x => fn_eq hp M D rounds (by kernel_rfl) (vec_find (c := ctx M D rounds (k + 3) _) v x)⟩

/-- **C91**: the functions of `FixedLinearBuffer` (`ublox/src/parser.rs:82-155`). -/
theorem c91_fixed (f : FixedLinearBuffer M) :
    let call := fun r g args => run (T := T) prog M D rounds depth r i!"FixedLinearBuffer" g (fixedV f :: args)
    (∀ bs, run prog M D rounds depth false i!"FixedLinearBuffer" i!"new" [.bytes bs] =
      .ok ((fixedV (FixedLinearBuffer.new bs : FixedLinearBuffer M) : V T P), .unit)) ∧
    (∀ i, call false i!"index" [.int i] = lift (index f i) fun b => .ok (.int b.toNat, fixedV f)) ∧
    (∀ lo hi, call true i!"index" [.range lo hi] = lift (range f lo hi) fun b => .ok (.bytes b, fixedV f)) ∧
    call false i!"clear" [] = .ok (.unit, fixedV (clear f)) ∧
    call false i!"len" [] = .ok (.int (len f), fixedV f) ∧
    call false i!"max_capacity" [] = .ok (.int (maxCapacity f), fixedV f) ∧
    (∀ bs, call false i!"extend_from_slice" [.bytes bs] =
      lift (extendFromSlice f bs) fun r => .ok (.int r.2, fixedV r.1)) ∧
    (∀ n, call false i!"drain" [.int n] = lift (drain f n) fun r => .ok (.unit, fixedV r)) ∧
    (∀ x : UInt8, call false i!"find" [.int x.toNat] = lift (find f x) fun r => .ok (optV r, fixedV f)) := by
  obtain ⟨k, rfl⟩ := Nat.exists_eq_add_of_le' hd
  refine ⟨fun bs => fn_eq hp M D rounds (by kernel_rfl) (fixed_new (c := ctx M D rounds (k + 3) _) bs rfl),
    fun i => fn_eq hp M D rounds (by kernel_rfl) (fixed_index (c := ctx M D rounds (k + 3) _) f i),
    fun lo hi => fn_eq hp M D rounds (by kernel_rfl) (fixed_range (c := ctx M D rounds (k + 3) _) f lo hi),
    fn_eq hp M D rounds (by kernel_rfl) (fixed_clear (c := ctx M D rounds (k + 3) _) f), fn_eq hp M D rounds (by kernel_rfl) (fixed_len (c := ctx M D rounds (k + 3) _) f),
    fn_eq hp M D rounds (by kernel_rfl) (fixed_maxCapacity (c := ctx M D rounds (k + 3) _) f),
    fun bs => fn_eq hp M D rounds (by kernel_rfl) (fixed_extend (c := ctx M D rounds (k + 3) _) f bs),
    fun n => fn_eq hp M D rounds (by kernel_rfl) (fixed_drain (c := ctx M D rounds (k + 3) _) f n),
    fun x => fn_eq hp M D rounds (by kernel_rfl) (fixed_find (c := ctx M D rounds (k + 3) _) f x ?_ fun i => ?_)⟩
  · exact call_eq M D rounds (k := k + 2) (by kernel_rfl) (fixed_len (c := ctx M D rounds (k + 2) _) f)
  · exact call_eq M D rounds (k := k + 2) (by kernel_rfl) (fixed_index (c := ctx M D rounds (k + 2) _) f i)

/-- **C91**: the methods that the trait `UnderlyingBuffer` itself provides (`ublox/src/parser.rs:43-51`), for
every buffer. -/
theorem c91_default_methods (t : T) :
    run prog M D rounds depth false i!"UnderlyingBuffer" i!"is_empty" [.buf t] =
      .ok (.bool (UnderlyingBuffer.isEmpty t), .buf t) ∧
    ∀ x : UInt8, run prog M D rounds depth false i!"UnderlyingBuffer" i!"find" [.buf t, .int x.toNat] =
      lift (findIndex (index t) x 0 (len t)) fun r => .ok (optV r, .buf t) := by
  obtain ⟨k, rfl⟩ := Nat.exists_eq_add_of_le' hd
  exact ⟨fn_eq hp M D rounds (by kernel_rfl) (buffer_isEmpty t),
    fun x => fn_eq hp M D rounds (by kernel_rfl) (buffer_find t x)⟩

/-- **C91**: the functions of `DualBuffer` (`ublox/src/parser.rs:205-385`), for every buffer. -/
theorem c91_dual (d : DualBuffer T) :
    let call := fun f args => run prog M D rounds depth false i!"DualBuffer" f (dualV d :: args)
    (∀ (t : T) bs, run prog M D rounds depth false i!"DualBuffer" i!"new" [.buf t, .bytes bs] =
      .ok (dualV (DualBuffer.new t bs), .unit)) ∧
    (∀ i, call i!"index" [.int i] = lift (d.index M i) fun b => .ok (.int b.toNat, dualV d)) ∧
    call i!"clear" [] = lift (d.clear M) (fun d => .ok (.unit, dualV d)) ∧
    (∀ n, call i!"drain" [.int n] = lift (d.drain M n) fun d => .ok (.unit, dualV d)) ∧
    call i!"len" [] = lift (d.length M) (fun n => .ok (.int n, dualV d)) ∧
    call i!"potential_lost_bytes" [] = lift (d.potentialLostBytes M) (fun n => .ok (.int n, dualV d)) ∧
    (∀ n k, call i!"can_drain_and_take" [.int n, .int k] =
      lift (d.canDrainAndTake M n k) fun b => .ok (.bool b, dualV d)) ∧
    (∀ lo hi, call i!"peek_raw" [.range lo hi] =
      lift (d.peekRaw M lo hi) fun r => .ok (.pair (.bytes r.1) (.bytes r.2), dualV d)) ∧
    (∀ n, call i!"take" [.int n] = lift (d.take M n) fun r => .ok (takeV r.1, dualV r.2)) ∧
    call i!"drop" [] = lift d.dropDual (fun b => .ok (.unit, dualV { d with buf := b })) := by
  obtain ⟨k, rfl⟩ := Nat.exists_eq_add_of_le' hd
  exact ⟨fun t bs => fn_eq hp M D rounds (by kernel_rfl) (dual_new _ t bs rfl),
    fun i => fn_eq hp M D rounds (by kernel_rfl) (dual_index _ d i),
    fn_eq hp M D rounds (by kernel_rfl) (dual_clear (link_dual M D rounds (k + 2) _) d),
    fun n => fn_eq hp M D rounds (by kernel_rfl) (dual_drain _ d n),
    fn_eq hp M D rounds (by kernel_rfl) (dual_len _ d),
    fn_eq hp M D rounds (by kernel_rfl) (dual_lost (link_dual M D rounds (k + 2) _) d),
    fun n m => fn_eq hp M D rounds (by kernel_rfl) (dual_canDrainAndTake _ d n m),
    fun lo hi => fn_eq hp M D rounds (by kernel_rfl) (dual_peekRaw _ d lo hi),
    fun n => fn_eq hp M D rounds (by kernel_rfl) (dual_take _ d n),
    fn_eq hp M D rounds (by kernel_rfl) (dual_drop _ d)⟩

/-- **C91**: the functions of `UbxChecksumCalc` (`ublox/src/parser.rs:387-412`). -/
theorem c91_checksum (c : ChecksumCalc) :
    run (T := T) prog M D rounds depth false i!"UbxChecksumCalc" i!"new" [] = .ok (calcV ParserChecksum.new, .unit) ∧
    (∀ bs, run (T := T) prog M D rounds depth false i!"UbxChecksumCalc" i!"update" [calcV c, .bytes bs] =
      .ok (.unit, calcV (ParserChecksum.update c bs))) ∧
    run (T := T) prog M D rounds depth false i!"UbxChecksumCalc" i!"result" [calcV c] =
      .ok (.pair (.int (ParserChecksum.result c).1.toNat) (.int (ParserChecksum.result c).2.toNat), calcV c) := by
  obtain ⟨k, rfl⟩ := Nat.exists_eq_add_of_le' hd
  exact ⟨fn_eq hp M D rounds (by kernel_rfl) (calc_new rfl),
    fun bs => fn_eq hp M D rounds (by kernel_rfl) (calc_update c bs),
    fn_eq hp M D rounds (by kernel_rfl) (calc_result c)⟩

/-- **C91**: the functions of `Parser` (`ublox/src/parser.rs:164-203`), for every buffer.  `consume` hands the
buffer of the parser to the iterator. -/
theorem c91_parser (p : Parser T) :
    let call := fun f args => run prog M D rounds depth false i!"Parser" f args
    (call i!"default" [] = .ok (.struct [i!"Parser"] [(i!"buf", .bytes [])], .unit)) ∧
    (∀ t : T, call i!"new" [.buf t] = .ok (parserV (Parser.new t), .unit)) ∧
    call i!"is_buffer_empty" [parserV p] = .ok (.bool p.isBufferEmpty, parserV p) ∧
    call i!"buffer_len" [parserV p] = .ok (.int p.bufferLen, parserV p) ∧
    (∀ bs, Prod.fst <$> call i!"consume" [parserV p, .bytes bs] =
      lift (p.consume M bs) fun it => .ok (iterV it)) := by
  obtain ⟨k, rfl⟩ := Nat.exists_eq_add_of_le' hd
  refine ⟨fn_eq hp M D rounds (by kernel_rfl) (parser_default rfl),
    fun t => fn_eq hp M D rounds (by kernel_rfl) (parser_new t rfl),
    fn_eq hp M D rounds (by kernel_rfl) (parser_isBufferEmpty p fun t => ?_),
    fn_eq hp M D rounds (by kernel_rfl) (parser_bufferLen p), fun bs => ?_⟩
  · exact call_eq M D rounds (k := k + 2) (by kernel_rfl) (buffer_isEmpty t)
  · rw [isParserRs_iff] at hp
    subst hp
    simp only [map_eq]
    exact file_consume M D rounds (k + 2) p bs

/-- **C91**: the two private functions of `ParserIter` (`ublox/src/parser.rs:420-463`), for every buffer. -/
theorem c91_iter (it : ParserIter T) :
    run prog M D rounds depth false i!"ParserIter" i!"find_sync" [iterV it] =
      lift (it.findSync M) (fun r => .ok (optV r, iterV it)) ∧
    ∀ n, run prog M D rounds depth false i!"ParserIter" i!"extract_packet" [iterV it, .int n] =
      lift (it.extractPacket M D n) fun r => .ok (answerV r.1, iterV r.2) := by
  obtain ⟨k, rfl⟩ := Nat.exists_eq_add_of_le' hd
  exact ⟨fn_eq hp M D rounds (by kernel_rfl) (iter_findSync (link_dual M D rounds (k + 2) _) it),
    fun n => fn_eq hp M D rounds (by kernel_rfl) (iter_extract (link_iter M D rounds (k + 1) _) it n)⟩

omit hd

/-- **C91**: `next` (`ublox/src/parser.rs:468-499`), for every buffer: if the loop of the model ends, then the
loop of the file ends with the same answer and leaves the same iterator. -/
theorem c91_next {it : ParserIter T} {r : R (Option (Except ParserError P) × ParserIter T)}
    (hr : ParserIter.next M D it = some r) :
    ∃ n, ∀ rounds, n ≤ rounds → ∀ depth, 4 ≤ depth →
      run prog M D rounds depth false i!"ParserIter" i!"next" [iterV it] =
        lift r fun r => .ok (answerV r.1, iterV r.2) := by
  rw [isParserRs_iff] at hp
  subst hp
  exact next_some M D hr

include hd in
/-- **C91**: and if the loop of the model does not end, then the loop of the file does not end within any
number of rounds. -/
theorem c91_next_endless {it : ParserIter T} (hr : ParserIter.next M D it = none) :
    run (P := P) prog M D rounds depth false i!"ParserIter" i!"next" [iterV it] = .error .fuel := by
  rw [isParserRs_iff] at hp
  subst hp
  exact next_none M D rounds hr hd

/-- **C91**: whatever is fed to a parser, in whatever pieces, with however many calls of `next`, dropping or
leaking the iterators: the functions of the file answer what the model answers, and the parser is the same
afterwards. -/
theorem c91_session {h : List (Bytes × Nat × Bool)} {p : Parser T}
    {r : R (List (List (Option (Except ParserError P))) × Parser T)} (hr : p.sessionLeak M D h = some r) :
    ∃ n, ∀ rounds, n ≤ rounds → ∀ depth, 4 ≤ depth →
      Client.session (run prog M D rounds depth false) (parserV p) h =
        lift r fun r => .ok (r.1.map (·.map answerV), parserV r.2) := by
  rw [isParserRs_iff] at hp
  subst hp
  exact client_session M D hr

end

theorem sessionLeak_false {T P : Type} [UnderlyingBuffer T] (M : Nat) (D : Dispatch P) (p : Parser T)
    (h : List (Bytes × Nat)) :
    p.sessionLeak M D (h.map fun x => (x.1, x.2, false)) = p.session M D h := by
  induction h generalizing p with
  | nil => rfl
  | cons x h ih =>
    simp only [List.map_cons, Parser.sessionLeak, Parser.session, Parser.feedLeak, Parser.feed, ih,
      Bool.false_eq_true, if_false]

/-- The answers `Some(..)` -/
def somes {T P : Type} (rss : List (List (V T P))) : List (V T P) :=
  rss.flatten.filter fun v => match v with | .ctor _ _ => true | _ => false

theorem somes_answers {T P : Type} (rss : List (List (Option (Except ParserError P)))) :
    (somes (rss.map (·.map answerV)) : List (V T P)) = (results rss).map fun r => .ctor i!"Some" (resV r) := by
  have key : ∀ l : List (Option (Except ParserError P)),
      ((l.map answerV).filter fun v : V T P => match v with | .ctor _ _ => true | _ => false) =
        (l.filterMap id).map fun r => .ctor i!"Some" (resV r) := by
    intro l
    induction l with
    | nil => rfl
    | cons a l ih =>
      cases a with
      | none => simpa [answerV] using ih
      | some r => simpa [answerV] using ih
  rw [somes, results, ← key, List.map_flatten]

/-- **C91**, together with C05: the functions in the text of `ublox/src/parser.rs`, used with a `Vec`, answer
exactly what the reference decoder makes of the bytes, and the parser keeps what the reference decoder keeps. -/
theorem c91_vec_reference_decoder {P : Type} {prog : List Impl} (hp : IsParserRs prog) {M : Nat} {D : Dispatch P}
    (hM : D.maxPayloadLen + 8 ≤ M) (chunks : List Bytes)
    (ht : chunks.flatten.length + D.maxPayloadLen + 8 ≤ M / 2) :
    ∃ n, ∀ rounds, n ≤ rounds → ∀ depth, 4 ≤ depth → ∃ rss,
      Client.session (run prog M D rounds depth false) (parserV (vecParser M))
        (chunks.map fun c => (c, chunks.flatten.length + 1, false)) =
          .ok (rss, parserV ⟨⟨(decode D.maxPayloadLen chunks.flatten).2⟩⟩) ∧
      somes rss = (decode D.maxPayloadLen chunks.flatten).1.map fun e =>
        .ctor i!"Some" (resV (report D.matchPacket e)) := by
  obtain ⟨rss, q, hq, he⟩ := c02_vec_exhaustion_reachable (D := D) hM chunks (by omega)
  have hf : fedBytes (chunks.map fun c => (c, chunks.flatten.length + 1)) = chunks.flatten := by
    rw [fedBytes, List.map_map]
    exact congrArg List.flatten (List.map_id' chunks)
  have hd := c05_vec_reference_decoder hM _ (fun x hx => by
    obtain ⟨c, hc, rfl⟩ := List.mem_map.1 hx
    have := (List.sublist_flatten_of_mem hc).length_le
    simp only
    omega) hq he
  rw [hf] at hd
  rw [← sessionLeak_false] at hq
  obtain ⟨n, hn⟩ := c91_session hp M D hq
  obtain ⟨⟨bytes⟩⟩ := q
  refine ⟨n, fun rounds h depth hd' => ⟨rss.map (·.map answerV), ?_, ?_⟩⟩
  · have := hn rounds h depth hd'
    rw [List.map_map] at this
    rw [← hd.2]
    exact this
  · rw [somes_answers, hd.1, List.map_map]
    rfl

/-- **C91**, together with C01: the functions in the text, used with a `FixedLinearBuffer` of any size, never
panic and never run forever. -/
theorem c91_flb_no_panic {P : Type} {prog : List Impl} (hp : IsParserRs prog) {M : Nat} {D : Dispatch P}
    (hM : D.maxPayloadLen + 8 ≤ M) (backing : Bytes) (hb : backing.length ≤ M / 2)
    (h : List (Bytes × Nat × Bool)) (hs : ∀ x ∈ h, x.1.length ≤ M / 2) :
    ∃ n, ∀ rounds, n ≤ rounds → ∀ depth, 4 ≤ depth → ∃ r,
      Client.session (run prog M D rounds depth false) (parserV (flbParser M backing)) h = .ok r := by
  obtain ⟨rss, q, hq⟩ := c01_flb_no_panic (D := D) hM backing hb h hs
  obtain ⟨n, hn⟩ := c91_session hp M D hq
  exact ⟨n, fun rounds h depth hd => ⟨_, hn rounds h depth hd⟩⟩

example : ∃ prog, IsParserRs prog ∧ lookup prog false i!"ParserIter" i!"next" = some parserRs_ParserIter_next :=
  ⟨_, parserRs_impls, by kernel_rfl⟩

/-- The program is executed: a frame of class 5, id 1 with an empty payload is found by `next`. -/
example : (run (T := FixedLinearBuffer 65535) parserRs_code 65535 rawDispatch 1 4 false i!"ParserIter" i!"next"
    [iterV ⟨⟨⟨[0, 0, 0, 0, 0, 0], 0⟩, 0, [0xb5, 0x62, 5, 1, 0, 0, 6, 23], 0⟩⟩]).toOption.map (fun r =>
      match r.1 with | .ctor _ (.ctor _ (.packet p)) => some p | _ => none) = some (some (5, 1, [])) := by
  kernel_rfl

end Ublox.Props
