import Verif.Lemmas.Eval

/-!
# `Parser`, the buffers, and the whole file
-/

namespace Ublox.Code

open UnderlyingBuffer

section

variable {T P : Type} [UnderlyingBuffer T] {c : Ctx T P}

/-! ## `Parser` -/

theorem parser_new (t : T) (h : c.me = i!"Parser") :
    runFn c Gen.parserRs_Parser_new [.buf t] = .ok (parserV (Parser.new t), .unit) := by
  simp only [rust, Gen.parserRs_Parser_new, parserV, Parser.new, h]
  rfl

theorem parser_default (h : c.me = i!"Parser") :
    runFn c Gen.parserRs_Parser_Default_default [] =
      .ok (.struct [i!"Parser"] [(i!"buf", .bytes [])], .unit) := by
  simp only [rust, Gen.parserRs_Parser_Default_default, h]
  rfl

theorem buffer_isEmpty (t : T) :
    runFn c Gen.parserRs_UnderlyingBuffer_is_empty [.buf t] = .ok (.bool (UnderlyingBuffer.isEmpty t), .buf t) := by
  simp only [rust, Gen.parserRs_UnderlyingBuffer_is_empty, UnderlyingBuffer.isEmpty]
  rfl

theorem buffer_find (t : T) (value : UInt8) :
    runFn c Gen.parserRs_UnderlyingBuffer_find [.buf t, .int value.toNat] =
      lift (findIndex (UnderlyingBuffer.index t) value 0 (UnderlyingBuffer.len t)) fun r => .ok (optV r, .buf t) := by
  simp only [rust, Gen.parserRs_UnderlyingBuffer_find]
  rw [findFrom_index (idx := UnderlyingBuffer.index t) (value := value)]
  · simp only [rust, Nat.sub_zero]
  · intro i
    simp only [rust, toNat_eq]

theorem parser_isBufferEmpty (p : Parser T)
    (h : ∀ t, c.user false i!"UnderlyingBuffer" i!"is_empty" [.buf t] =
      .ok (.bool (UnderlyingBuffer.isEmpty t), .buf t)) :
    runFn c Gen.parserRs_Parser_is_buffer_empty [parserV p] = .ok (.bool p.isBufferEmpty, parserV p) := by
  simp only [rust, Gen.parserRs_Parser_is_buffer_empty, parserV, Parser.isBufferEmpty, h]

theorem parser_bufferLen (p : Parser T) :
    runFn c Gen.parserRs_Parser_buffer_len [parserV p] = .ok (.int p.bufferLen, parserV p) := by
  simp only [rust, Gen.parserRs_Parser_buffer_len, parserV, Parser.bufferLen]

omit [UnderlyingBuffer T] in
/-- The loop of `consume`: it stops at the first number at which `idx` gives the value that is looked for. -/
theorem forLoop_find {body : V T P → Env T P → Res T P} {idx : Nat → R UInt8} {value : UInt8} {env : Env T P}
    {g : Nat → R (Env T P)}
    (h : ∀ i, body (.int i) env = lift (idx i) fun b =>
      if b = value then lift (g i) fun env => .ok (.brk, env) else .ok (.val .unit, env)) (i n : Nat) :
    forLoop body ((List.range' i n).map .int) env =
      lift (findIndex idx value i n) fun r =>
        match r with
        | some i => lift (g i) fun env => .ok (.val .unit, env)
        | .none => .ok (.val .unit, env) := by
  induction n generalizing i with
  | zero => rfl
  | succ n ih =>
    simp only [List.range'_succ, List.map_cons, forLoop, h, findIndex]
    cases hi : idx i with
    | error p => rfl
    | ok b =>
      by_cases hb : b = value
      · simp only [rust, hb, if_true, bind, Except.bind, BEq.rfl]
        cases hg : g i <;> simp [rust]
      · simp only [rust, hb, if_false, bind, Except.bind, ih, beq_eq_false_iff_ne.2 hb]

theorem parser_consume (h : DualOk c) (p : Parser T) (bs : Bytes) :
    andThen (runFn c Gen.parserRs_Parser_consume [parserV p, .bytes bs]) (fun r => .ok r.1) =
      lift (p.consume c.M bs) fun it => .ok (iterV it) := by
  simp only [rust, Gen.parserRs_Parser_consume, parserV, Parser.consume, h.new, h.len]
  refine congrArg (lift _) (funext fun n => ?_)
  rw [forLoop_find (idx := (DualBuffer.new p.buf bs).index c.M) (value := SYNC_CHAR_1)
    (g := fun i => do return [(i!"buf", dualV (← (DualBuffer.new p.buf bs).drain c.M i)),
      (i!"self", parserV p), (i!"new_data", .bytes bs)])]
  · simp only [rust, Nat.sub_zero]
    refine congrArg (lift _) (funext fun r => ?_)
    cases r <;> simp only [rust, iterV]
  · intro i
    simp only [rust, h.index, h.drain, UInt8.toNat_inj, parserV]

/-! ## `Vec<u8>` -/

variable (v : VecBuf c.M)

theorem vec_clear : runFn c Gen.parserRs_Vec_UnderlyingBuffer_clear [.bytes v.bytes] =
    .ok (.unit, .bytes (UnderlyingBuffer.clear v).bytes) := by
  simp only [rust, Gen.parserRs_Vec_UnderlyingBuffer_clear, UnderlyingBuffer.clear]

theorem vec_len : runFn c Gen.parserRs_Vec_UnderlyingBuffer_len [.bytes v.bytes] =
    .ok (.int (UnderlyingBuffer.len v), .bytes v.bytes) := by
  simp only [rust, Gen.parserRs_Vec_UnderlyingBuffer_len, UnderlyingBuffer.len]

theorem vec_maxCapacity : runFn c Gen.parserRs_Vec_UnderlyingBuffer_max_capacity [.bytes v.bytes] =
    .ok (.int (UnderlyingBuffer.maxCapacity v), .bytes v.bytes) := by
  simp only [rust, Gen.parserRs_Vec_UnderlyingBuffer_max_capacity, UnderlyingBuffer.maxCapacity]

theorem vec_extend (bs : Bytes) :
    runFn c Gen.parserRs_Vec_UnderlyingBuffer_extend_from_slice [.bytes v.bytes, .bytes bs] =
      lift (UnderlyingBuffer.extendFromSlice v bs) fun r => .ok (.int r.2, .bytes r.1.bytes) := by
  simp only [rust, Gen.parserRs_Vec_UnderlyingBuffer_extend_from_slice, UnderlyingBuffer.extendFromSlice]

theorem vec_drain (n : Nat) :
    runFn c Gen.parserRs_Vec_UnderlyingBuffer_drain [.bytes v.bytes, .int n] =
      lift (UnderlyingBuffer.drain v n) fun r => .ok (.unit, .bytes r.bytes) := by
  simp only [rust, Gen.parserRs_Vec_UnderlyingBuffer_drain, UnderlyingBuffer.drain, Nat.zero_le, List.take_zero]

theorem vec_find (x : UInt8) :
    runFn c Gen.parserRs_Vec_UnderlyingBuffer_find [.bytes v.bytes, .int x.toNat] =
      lift (UnderlyingBuffer.find v x) fun r => .ok (optV r, .bytes v.bytes) := by
  simp only [rust, Gen.parserRs_Vec_UnderlyingBuffer_find, UnderlyingBuffer.find]
  rw [position_findIdx (value := x)]
  · simp only [rust, Nat.add_zero, Option.map_id']
  · intro b
    simp only [rust, toNat_eq]

/-! ## `FixedLinearBuffer` -/

variable (f : FixedLinearBuffer c.M)

theorem fixed_new (bs : Bytes) (h : c.me = i!"FixedLinearBuffer") :
    runFn c Gen.parserRs_FixedLinearBuffer_new [.bytes bs] =
      .ok (fixedV (FixedLinearBuffer.new bs : FixedLinearBuffer c.M), .unit) := by
  simp only [rust, Gen.parserRs_FixedLinearBuffer_new, fixedV, FixedLinearBuffer.new, h]
  rfl

theorem fixed_range (lo hi : Nat) :
    runFn c Gen.parserRs_FixedLinearBuffer_Index_Range_index [fixedV f, .range lo hi] =
      lift (UnderlyingBuffer.range f lo hi) fun b => .ok (.bytes b, fixedV f) := by
  simp only [rust, Gen.parserRs_FixedLinearBuffer_Index_Range_index, fixedV, UnderlyingBuffer.range,
    FixedLinearBuffer.range]

theorem fixed_index (i : Nat) :
    runFn c Gen.parserRs_FixedLinearBuffer_Index_index [fixedV f, .int i] =
      lift (UnderlyingBuffer.index f i) fun b => .ok (.int b.toNat, fixedV f) := by
  simp only [rust, Gen.parserRs_FixedLinearBuffer_Index_index, fixedV, UnderlyingBuffer.index,
    FixedLinearBuffer.index]

theorem fixed_clear : runFn c Gen.parserRs_FixedLinearBuffer_UnderlyingBuffer_clear [fixedV f] =
    .ok (.unit, fixedV (UnderlyingBuffer.clear f)) := by
  simp only [rust, Gen.parserRs_FixedLinearBuffer_UnderlyingBuffer_clear, fixedV, UnderlyingBuffer.clear,
    FixedLinearBuffer.clear]

theorem fixed_len : runFn c Gen.parserRs_FixedLinearBuffer_UnderlyingBuffer_len [fixedV f] =
    .ok (.int (UnderlyingBuffer.len f), fixedV f) := by
  simp only [rust, Gen.parserRs_FixedLinearBuffer_UnderlyingBuffer_len, fixedV, UnderlyingBuffer.len]

theorem fixed_maxCapacity : runFn c Gen.parserRs_FixedLinearBuffer_UnderlyingBuffer_max_capacity [fixedV f] =
    .ok (.int (UnderlyingBuffer.maxCapacity f), fixedV f) := by
  simp only [rust, Gen.parserRs_FixedLinearBuffer_UnderlyingBuffer_max_capacity, fixedV,
    UnderlyingBuffer.maxCapacity]

theorem ptrCopy_memmove (mem : Bytes) (src n : Nat) : ptrCopy mem src 0 n = FixedLinearBuffer.memmove mem src n := by
  simp only [ptrCopy, FixedLinearBuffer.memmove, Nat.zero_add, List.take_zero, List.nil_append]

theorem fixed_extend (bs : Bytes) :
    runFn c Gen.parserRs_FixedLinearBuffer_UnderlyingBuffer_extend_from_slice [fixedV f, .bytes bs] =
      lift (UnderlyingBuffer.extendFromSlice f bs) fun r => .ok (.int r.2, fixedV r.1) := by
  simp only [rust, Gen.parserRs_FixedLinearBuffer_UnderlyingBuffer_extend_from_slice, fixedV,
    UnderlyingBuffer.extendFromSlice, FixedLinearBuffer.extendFromSlice]
  refine congrArg (lift _) (funext fun room => congrArg (lift _) (funext fun _ => ?_))
  cases uadd c.M f.len (min bs.length room) with
  | error p => rfl
  | ok stop =>
    simp only [rust]
    refine congrArg (lift _) (funext fun _ => congrArg (lift _) (funext fun _ => ?_))
    split <;> simp [*]

theorem fixed_drain (n : Nat) :
    runFn c Gen.parserRs_FixedLinearBuffer_UnderlyingBuffer_drain [fixedV f, .int n] =
      lift (UnderlyingBuffer.drain f n) fun r => .ok (.unit, fixedV r) := by
  simp only [rust, Gen.parserRs_FixedLinearBuffer_UnderlyingBuffer_drain, fixedV,
    UnderlyingBuffer.drain, FixedLinearBuffer.drain]
  refine ite_congr rfl (fun _ => rfl) (fun _ => congrArg (lift _) (funext fun k => ?_))
  simp only [rust, placeOf, ptrCall, getPath, setPath, ptrCopy_memmove, Nat.zero_add]

theorem fixed_find (x : UInt8)
    (hl : c.user false i!"FixedLinearBuffer" i!"len" [fixedV f] = .ok (.int f.len, fixedV f))
    (hi : ∀ i, c.user false i!"FixedLinearBuffer" i!"index" [fixedV f, .int i] =
      lift (f.index i) fun b => .ok (.int b.toNat, fixedV f)) :
    runFn c Gen.parserRs_FixedLinearBuffer_UnderlyingBuffer_find [fixedV f, .int x.toNat] =
      lift (UnderlyingBuffer.find f x) fun r => .ok (optV r, fixedV f) := by
  simp only [fixedV] at hl hi
  simp only [rust, Gen.parserRs_FixedLinearBuffer_UnderlyingBuffer_find, fixedV, UnderlyingBuffer.find,
    FixedLinearBuffer.find, hl]
  rw [findFrom_index (idx := f.index) (value := x)]
  · simp only [rust, Nat.sub_zero]
  · intro i
    simp only [rust, toNat_eq, hi]

end

end Ublox.Code
