import Verif.Model.Code

/-! Generated by `tools/gencode.py`: the functions of hand-written files of `/repo` as syntax; do not edit. -/

namespace Ublox.Gen
open Code

/-- `ublox/src/parser.rs:44` -/
def parserRs_UnderlyingBuffer_find : Fn where
  name := i!"find"
  params := [i!"self", i!"value"]
  ret := i!""
  body :=
    .last
      (.methFn
        (.range
          (.int 0)
          (.meth (.path [i!"self"]) i!"len" .nil))
        i!"find"
        i!"i"
        (.bin
          .eq
          (.index (.path [i!"self"]) (.path [i!"i"]))
          (.path [i!"value"])))

/-- `ublox/src/parser.rs:49` -/
def parserRs_UnderlyingBuffer_is_empty : Fn where
  name := i!"is_empty"
  params := [i!"self"]
  ret := i!"bool"
  body :=
    .last
      (.bin
        .eq
        (.meth (.path [i!"self"]) i!"len" .nil)
        (.int 0))

/-- `ublox/src/parser.rs:1-53` -/
def parserRs_UnderlyingBuffer_impl : Impl := ⟨[i!"UnderlyingBuffer"], i!"UnderlyingBuffer", [parserRs_UnderlyingBuffer_find, parserRs_UnderlyingBuffer_is_empty]⟩

/-- `ublox/src/parser.rs:56` -/
def parserRs_Vec_UnderlyingBuffer_clear : Fn where
  name := i!"clear"
  params := [i!"self"]
  ret := i!""
  body :=
    .semi
      (.meth (.path [i!"self"]) i!"clear" .nil)
      .nil

/-- `ublox/src/parser.rs:60` -/
def parserRs_Vec_UnderlyingBuffer_len : Fn where
  name := i!"len"
  params := [i!"self"]
  ret := i!"usize"
  body :=
    .last
      (.meth (.path [i!"self"]) i!"len" .nil)

/-- `ublox/src/parser.rs:64` -/
def parserRs_Vec_UnderlyingBuffer_max_capacity : Fn where
  name := i!"max_capacity"
  params := [i!"self"]
  ret := i!"usize"
  body :=
    .last (.path [i!"core", i!"usize", i!"MAX"])

/-- `ublox/src/parser.rs:68` -/
def parserRs_Vec_UnderlyingBuffer_extend_from_slice : Fn where
  name := i!"extend_from_slice"
  params := [i!"self", i!"other"]
  ret := i!"usize"
  body :=
    .semi
      (.meth
        (.path [i!"self"])
        i!"extend_from_slice"
        (.cons (.path [i!"other"]) .nil))
      (.last (.int 0))

/-- `ublox/src/parser.rs:73` -/
def parserRs_Vec_UnderlyingBuffer_drain : Fn where
  name := i!"drain"
  params := [i!"self", i!"count"]
  ret := i!""
  body :=
    .semi
      (.meth
        (.path [i!"self"])
        i!"drain"
        (.cons
          (.range (.int 0) (.path [i!"count"]))
          .nil))
      .nil

/-- `ublox/src/parser.rs:77` -/
def parserRs_Vec_UnderlyingBuffer_find : Fn where
  name := i!"find"
  params := [i!"self", i!"value"]
  ret := i!""
  body :=
    .last
      (.methFn
        (.meth (.path [i!"self"]) i!"iter" .nil)
        i!"position"
        i!"elem"
        (.bin
          .eq
          (.un .deref (.path [i!"elem"]))
          (.path [i!"value"])))

/-- `ublox/src/parser.rs:54-114` -/
def parserRs_Vec_UnderlyingBuffer_impl : Impl := ⟨[i!"UnderlyingBuffer"], i!"Vec", [parserRs_Vec_UnderlyingBuffer_clear, parserRs_Vec_UnderlyingBuffer_len, parserRs_Vec_UnderlyingBuffer_max_capacity, parserRs_Vec_UnderlyingBuffer_extend_from_slice, parserRs_Vec_UnderlyingBuffer_drain, parserRs_Vec_UnderlyingBuffer_find]⟩

/-- `ublox/src/parser.rs:88` -/
def parserRs_FixedLinearBuffer_new : Fn where
  name := i!"new"
  params := [i!"buf"]
  ret := i!"Self"
  body :=
    .last
      (.struct
        [i!"Self"]
        (.cons
          i!"buffer"
          (.path [i!"buf"])
          (.cons i!"len" (.int 0) .nil)))

/-- `ublox/src/parser.rs:54-114` -/
def parserRs_FixedLinearBuffer_impl : Impl := ⟨[], i!"FixedLinearBuffer", [parserRs_FixedLinearBuffer_new]⟩

/-- `ublox/src/parser.rs:99` -/
def parserRs_FixedLinearBuffer_Index_Range_index : Fn where
  name := i!"index"
  params := [i!"self", i!"index"]
  ret := i!""
  body :=
    .semi
      (.ite
        (.bin
          .gt
          (.field (.path [i!"index"]) i!"end")
          (.field (.path [i!"self"]) i!"len"))
        (.semi .panic .nil)
        .nil)
      (.last
        (.meth
          (.field (.path [i!"self"]) i!"buffer")
          i!"index"
          (.cons (.path [i!"index"]) .nil)))

/-- `ublox/src/parser.rs:54-114` -/
def parserRs_FixedLinearBuffer_Index_Range_impl : Impl := ⟨[i!"core", i!"ops", i!"Index", i!"core", i!"ops", i!"Range", i!"usize"], i!"FixedLinearBuffer", [parserRs_FixedLinearBuffer_Index_Range_index]⟩

/-- `ublox/src/parser.rs:110` -/
def parserRs_FixedLinearBuffer_Index_index : Fn where
  name := i!"index"
  params := [i!"self", i!"index"]
  ret := i!""
  body :=
    .last
      (.un
        .ref
        (.index
          (.field (.path [i!"self"]) i!"buffer")
          (.path [i!"index"])))

/-- `ublox/src/parser.rs:54-114` -/
def parserRs_FixedLinearBuffer_Index_impl : Impl := ⟨[i!"core", i!"ops", i!"Index", i!"usize"], i!"FixedLinearBuffer", [parserRs_FixedLinearBuffer_Index_index]⟩

/-- `ublox/src/parser.rs:116` -/
def parserRs_FixedLinearBuffer_UnderlyingBuffer_clear : Fn where
  name := i!"clear"
  params := [i!"self"]
  ret := i!""
  body :=
    .semi
      (.assign
        (.field (.path [i!"self"]) i!"len")
        (.int 0))
      .nil

/-- `ublox/src/parser.rs:120` -/
def parserRs_FixedLinearBuffer_UnderlyingBuffer_len : Fn where
  name := i!"len"
  params := [i!"self"]
  ret := i!"usize"
  body :=
    .last (.field (.path [i!"self"]) i!"len")

/-- `ublox/src/parser.rs:124` -/
def parserRs_FixedLinearBuffer_UnderlyingBuffer_max_capacity : Fn where
  name := i!"max_capacity"
  params := [i!"self"]
  ret := i!"usize"
  body :=
    .last
      (.meth
        (.field (.path [i!"self"]) i!"buffer")
        i!"len"
        .nil)

/-- `ublox/src/parser.rs:128` -/
def parserRs_FixedLinearBuffer_UnderlyingBuffer_extend_from_slice : Fn where
  name := i!"extend_from_slice"
  params := [i!"self", i!"other"]
  ret := i!"usize"
  body :=
    .let_
      (.name i!"to_copy")
      (.call
        [i!"core", i!"cmp", i!"min"]
        (.cons
          (.meth (.path [i!"other"]) i!"len" .nil)
          (.cons
            (.bin
              .sub
              (.meth
                (.field (.path [i!"self"]) i!"buffer")
                i!"len"
                .nil)
              (.field (.path [i!"self"]) i!"len"))
            .nil)))
      (.let_
        (.name i!"uncopyable")
        (.bin
          .sub
          (.meth (.path [i!"other"]) i!"len" .nil)
          (.path [i!"to_copy"]))
        (.semi
          (.meth
            (.index
              (.field (.path [i!"self"]) i!"buffer")
              (.range
                (.field (.path [i!"self"]) i!"len")
                (.bin
                  .add
                  (.field (.path [i!"self"]) i!"len")
                  (.path [i!"to_copy"]))))
            i!"copy_from_slice"
            (.cons
              (.un
                .ref
                (.index
                  (.path [i!"other"])
                  (.rangeTo (.path [i!"to_copy"]))))
              .nil))
          (.semi
            (.addAssign
              (.field (.path [i!"self"]) i!"len")
              (.path [i!"to_copy"]))
            (.last (.path [i!"uncopyable"])))))

/-- `ublox/src/parser.rs:136` -/
def parserRs_FixedLinearBuffer_UnderlyingBuffer_drain : Fn where
  name := i!"drain"
  params := [i!"self", i!"count"]
  ret := i!""
  body :=
    .semi
      (.ite
        (.bin
          .ge
          (.path [i!"count"])
          (.field (.path [i!"self"]) i!"len"))
        (.semi
          (.assign
            (.field (.path [i!"self"]) i!"len")
            (.int 0))
          (.semi
            (.return_ (.tuple .nil))
            .nil))
        .nil)
      (.let_
        (.name i!"new_size")
        (.bin
          .sub
          (.field (.path [i!"self"]) i!"len")
          (.path [i!"count"]))
        (.semi
          (.block
            (.let_
              (.name i!"bufptr")
              (.meth
                (.field (.path [i!"self"]) i!"buffer")
                i!"as_mut_ptr"
                .nil)
              (.last
                (.block
                  (.semi
                    (.call
                      [i!"core", i!"ptr", i!"copy"]
                      (.cons
                        (.meth
                          (.path [i!"bufptr"])
                          i!"add"
                          (.cons
                            (.path [i!"count"])
                            .nil))
                        (.cons
                          (.path [i!"bufptr"])
                          (.cons
                            (.path [i!"new_size"])
                            .nil))))
                    .nil)))))
          (.semi
            (.assign
              (.field (.path [i!"self"]) i!"len")
              (.path [i!"new_size"]))
            .nil)))

/-- `ublox/src/parser.rs:152` -/
def parserRs_FixedLinearBuffer_UnderlyingBuffer_find : Fn where
  name := i!"find"
  params := [i!"self", i!"value"]
  ret := i!""
  body :=
    .last
      (.methFn
        (.range
          (.int 0)
          (.meth (.path [i!"self"]) i!"len" .nil))
        i!"find"
        i!"i"
        (.bin
          .eq
          (.index (.path [i!"self"]) (.path [i!"i"]))
          (.path [i!"value"])))

/-- `ublox/src/parser.rs:115-170` -/
def parserRs_FixedLinearBuffer_UnderlyingBuffer_impl : Impl := ⟨[i!"UnderlyingBuffer"], i!"FixedLinearBuffer", [parserRs_FixedLinearBuffer_UnderlyingBuffer_clear, parserRs_FixedLinearBuffer_UnderlyingBuffer_len, parserRs_FixedLinearBuffer_UnderlyingBuffer_max_capacity, parserRs_FixedLinearBuffer_UnderlyingBuffer_extend_from_slice, parserRs_FixedLinearBuffer_UnderlyingBuffer_drain, parserRs_FixedLinearBuffer_UnderlyingBuffer_find]⟩

/-- `ublox/src/parser.rs:173` -/
def parserRs_Parser_Default_default : Fn where
  name := i!"default"
  params := []
  ret := i!"Self"
  body :=
    .last
      (.struct
        [i!"Self"]
        (.cons
          i!"buf"
          (.call [i!"Vec", i!"new"] .nil)
          .nil))

/-- `ublox/src/parser.rs:171-227` -/
def parserRs_Parser_Default_impl : Impl := ⟨[i!"core", i!"default", i!"Default"], i!"Parser", [parserRs_Parser_Default_default]⟩

/-- `ublox/src/parser.rs:179` -/
def parserRs_Parser_new : Fn where
  name := i!"new"
  params := [i!"underlying"]
  ret := i!"Self"
  body :=
    .last
      (.struct
        [i!"Self"]
        (.cons
          i!"buf"
          (.path [i!"underlying"])
          .nil))

/-- `ublox/src/parser.rs:183` -/
def parserRs_Parser_is_buffer_empty : Fn where
  name := i!"is_buffer_empty"
  params := [i!"self"]
  ret := i!"bool"
  body :=
    .last
      (.meth
        (.field (.path [i!"self"]) i!"buf")
        i!"is_empty"
        .nil)

/-- `ublox/src/parser.rs:187` -/
def parserRs_Parser_buffer_len : Fn where
  name := i!"buffer_len"
  params := [i!"self"]
  ret := i!"usize"
  body :=
    .last
      (.meth
        (.field (.path [i!"self"]) i!"buf")
        i!"len"
        .nil)

/-- `ublox/src/parser.rs:191` -/
def parserRs_Parser_consume : Fn where
  name := i!"consume"
  params := [i!"self", i!"new_data"]
  ret := i!""
  body :=
    .let_
      (.name i!"buf")
      (.call
        [i!"DualBuffer", i!"new"]
        (.cons
          (.un
            .refMut
            (.field (.path [i!"self"]) i!"buf"))
          (.cons (.path [i!"new_data"]) .nil)))
      (.semi
        (.for_
          i!"i"
          (.range
            (.int 0)
            (.meth (.path [i!"buf"]) i!"len" .nil))
          (.last
            (.ite
              (.bin
                .eq
                (.index (.path [i!"buf"]) (.path [i!"i"]))
                (.path [i!"SYNC_CHAR_1"]))
              (.semi
                (.meth
                  (.path [i!"buf"])
                  i!"drain"
                  (.cons (.path [i!"i"]) .nil))
                (.semi .break_ .nil))
              .nil)))
        (.last
          (.struct
            [i!"ParserIter"]
            (.cons i!"buf" (.path [i!"buf"]) .nil))))

/-- `ublox/src/parser.rs:171-227` -/
def parserRs_Parser_impl : Impl := ⟨[], i!"Parser", [parserRs_Parser_new, parserRs_Parser_is_buffer_empty, parserRs_Parser_buffer_len, parserRs_Parser_consume]⟩

/-- `ublox/src/parser.rs:219` -/
def parserRs_DualBuffer_Index_index : Fn where
  name := i!"index"
  params := [i!"self", i!"index"]
  ret := i!""
  body :=
    .last
      (.ite
        (.bin
          .lt
          (.bin
            .add
            (.field (.path [i!"self"]) i!"off")
            (.path [i!"index"]))
          (.meth
            (.field (.path [i!"self"]) i!"buf")
            i!"len"
            .nil))
        (.last
          (.un
            .ref
            (.index
              (.field (.path [i!"self"]) i!"buf")
              (.bin
                .add
                (.path [i!"index"])
                (.field (.path [i!"self"]) i!"off")))))
        (.last
          (.un
            .ref
            (.index
              (.field (.path [i!"self"]) i!"new_buf")
              (.bin
                .sub
                (.bin
                  .add
                  (.field
                    (.path [i!"self"])
                    i!"new_buf_offset")
                  (.path [i!"index"]))
                (.bin
                  .sub
                  (.meth
                    (.field (.path [i!"self"]) i!"buf")
                    i!"len"
                    .nil)
                  (.field (.path [i!"self"]) i!"off")))))))

/-- `ublox/src/parser.rs:171-227` -/
def parserRs_DualBuffer_Index_impl : Impl := ⟨[i!"core", i!"ops", i!"Index", i!"usize"], i!"DualBuffer", [parserRs_DualBuffer_Index_index]⟩

/-- `ublox/src/parser.rs:229` -/
def parserRs_DualBuffer_new : Fn where
  name := i!"new"
  params := [i!"buf", i!"new_buf"]
  ret := i!"Self"
  body :=
    .last
      (.struct
        [i!"Self"]
        (.cons
          i!"buf"
          (.path [i!"buf"])
          (.cons
            i!"off"
            (.int 0)
            (.cons
              i!"new_buf"
              (.path [i!"new_buf"])
              (.cons
                i!"new_buf_offset"
                (.int 0)
                .nil)))))

/-- `ublox/src/parser.rs:239` -/
def parserRs_DualBuffer_clear : Fn where
  name := i!"clear"
  params := [i!"self"]
  ret := i!""
  body :=
    .semi
      (.meth
        (.path [i!"self"])
        i!"drain"
        (.cons
          (.meth (.path [i!"self"]) i!"len" .nil)
          .nil))
      .nil

/-- `ublox/src/parser.rs:244` -/
def parserRs_DualBuffer_drain : Fn where
  name := i!"drain"
  params := [i!"self", i!"count"]
  ret := i!""
  body :=
    .let_
      (.name i!"underlying_bytes")
      (.call
        [i!"core", i!"cmp", i!"min"]
        (.cons
          (.bin
            .sub
            (.meth
              (.field (.path [i!"self"]) i!"buf")
              i!"len"
              .nil)
            (.field (.path [i!"self"]) i!"off"))
          (.cons (.path [i!"count"]) .nil)))
      (.let_
        (.name i!"new_bytes")
        (.meth
          (.path [i!"count"])
          i!"saturating_sub"
          (.cons
            (.path [i!"underlying_bytes"])
            .nil))
        (.semi
          (.addAssign
            (.field (.path [i!"self"]) i!"off")
            (.path [i!"underlying_bytes"]))
          (.semi
            (.addAssign
              (.field
                (.path [i!"self"])
                i!"new_buf_offset")
              (.path [i!"new_bytes"]))
            .nil)))

/-- `ublox/src/parser.rs:255` -/
def parserRs_DualBuffer_len : Fn where
  name := i!"len"
  params := [i!"self"]
  ret := i!"usize"
  body :=
    .last
      (.bin
        .sub
        (.bin
          .add
          (.bin
            .sub
            (.meth
              (.field (.path [i!"self"]) i!"buf")
              i!"len"
              .nil)
            (.field (.path [i!"self"]) i!"off"))
          (.meth
            (.field (.path [i!"self"]) i!"new_buf")
            i!"len"
            .nil))
        (.field (.path [i!"self"]) i!"new_buf_offset"))

/-- `ublox/src/parser.rs:261` -/
def parserRs_DualBuffer_potential_lost_bytes : Fn where
  name := i!"potential_lost_bytes"
  params := [i!"self"]
  ret := i!"usize"
  body :=
    .last
      (.ite
        (.bin
          .le
          (.meth (.path [i!"self"]) i!"len" .nil)
          (.meth
            (.field (.path [i!"self"]) i!"buf")
            i!"max_capacity"
            .nil))
        (.last (.int 0))
        (.last
          (.bin
            .sub
            (.meth (.path [i!"self"]) i!"len" .nil)
            (.meth
              (.field (.path [i!"self"]) i!"buf")
              i!"max_capacity"
              .nil))))

/-- `ublox/src/parser.rs:269` -/
def parserRs_DualBuffer_can_drain_and_take : Fn where
  name := i!"can_drain_and_take"
  params := [i!"self", i!"drain", i!"take"]
  ret := i!"bool"
  body :=
    .let_
      (.name i!"underlying_bytes")
      (.call
        [i!"core", i!"cmp", i!"min"]
        (.cons
          (.bin
            .sub
            (.meth
              (.field (.path [i!"self"]) i!"buf")
              i!"len"
              .nil)
            (.field (.path [i!"self"]) i!"off"))
          (.cons (.path [i!"drain"]) .nil)))
      (.let_
        (.name i!"new_bytes")
        (.meth
          (.path [i!"drain"])
          i!"saturating_sub"
          (.cons
            (.path [i!"underlying_bytes"])
            .nil))
        (.let_
          (.name i!"drained_off")
          (.bin
            .add
            (.field (.path [i!"self"]) i!"off")
            (.path [i!"underlying_bytes"]))
          (.let_
            (.name i!"drained_new_off")
            (.bin
              .add
              (.field
                (.path [i!"self"])
                i!"new_buf_offset")
              (.path [i!"new_bytes"]))
            (.semi
              (.ite
                (.bin
                  .gt
                  (.path [i!"take"])
                  (.bin
                    .sub
                    (.bin
                      .add
                      (.bin
                        .sub
                        (.meth
                          (.field (.path [i!"self"]) i!"buf")
                          i!"len"
                          .nil)
                        (.path [i!"drained_off"]))
                      (.meth
                        (.field (.path [i!"self"]) i!"new_buf")
                        i!"len"
                        .nil))
                    (.path [i!"drained_new_off"])))
                (.semi
                  (.return_ (.path [i!"false"]))
                  .nil)
                .nil)
              (.let_
                (.name i!"underlying_bytes")
                (.call
                  [i!"core", i!"cmp", i!"min"]
                  (.cons
                    (.bin
                      .sub
                      (.meth
                        (.field (.path [i!"self"]) i!"buf")
                        i!"len"
                        .nil)
                      (.path [i!"drained_off"]))
                    (.cons (.path [i!"take"]) .nil)))
                (.let_
                  (.name i!"new_bytes")
                  (.meth
                    (.path [i!"take"])
                    i!"saturating_sub"
                    (.cons
                      (.path [i!"underlying_bytes"])
                      .nil))
                  (.semi
                    (.ite
                      (.bin
                        .eq
                        (.path [i!"underlying_bytes"])
                        (.int 0))
                      (.semi
                        (.return_ (.path [i!"true"]))
                        .nil)
                      .nil)
                    (.semi
                      (.ite
                        (.bin
                          .eq
                          (.path [i!"new_bytes"])
                          (.int 0))
                        (.semi
                          (.return_ (.path [i!"true"]))
                          .nil)
                        .nil)
                      (.semi
                        (.ite
                          (.bin
                            .gt
                            (.path [i!"new_bytes"])
                            (.bin
                              .sub
                              (.meth
                                (.field (.path [i!"self"]) i!"buf")
                                i!"max_capacity"
                                .nil)
                              (.bin
                                .sub
                                (.meth
                                  (.field (.path [i!"self"]) i!"buf")
                                  i!"len"
                                  .nil)
                                (.path [i!"drained_off"]))))
                          (.semi
                            (.return_ (.path [i!"false"]))
                            .nil)
                          .nil)
                        (.last (.path [i!"true"])))))))))))

/-- `ublox/src/parser.rs:302` -/
def parserRs_DualBuffer_peek_raw : Fn where
  name := i!"peek_raw"
  params := [i!"self", i!"range"]
  ret := i!""
  body :=
    .let_
      (.name i!"split")
      (.bin
        .sub
        (.meth
          (.field (.path [i!"self"]) i!"buf")
          i!"len"
          .nil)
        (.field (.path [i!"self"]) i!"off"))
      (.let_
        (.name i!"a")
        (.ite
          (.bin
            .ge
            (.field (.path [i!"range"]) i!"start")
            (.path [i!"split"]))
          (.last
            (.un .ref (.array .nil)))
          (.last
            (.un
              .ref
              (.index
                (.field (.path [i!"self"]) i!"buf")
                (.range
                  (.bin
                    .add
                    (.field (.path [i!"range"]) i!"start")
                    (.field (.path [i!"self"]) i!"off"))
                  (.call
                    [i!"core", i!"cmp", i!"min"]
                    (.cons
                      (.meth
                        (.field (.path [i!"self"]) i!"buf")
                        i!"len"
                        .nil)
                      (.cons
                        (.bin
                          .add
                          (.field (.path [i!"range"]) i!"end")
                          (.field (.path [i!"self"]) i!"off"))
                        .nil))))))))
        (.let_
          (.name i!"b")
          (.ite
            (.bin
              .le
              (.field (.path [i!"range"]) i!"end")
              (.path [i!"split"]))
            (.last
              (.un .ref (.array .nil)))
            (.last
              (.un
                .ref
                (.index
                  (.field (.path [i!"self"]) i!"new_buf")
                  (.range
                    (.bin
                      .add
                      (.field
                        (.path [i!"self"])
                        i!"new_buf_offset")
                      (.meth
                        (.field (.path [i!"range"]) i!"start")
                        i!"saturating_sub"
                        (.cons
                          (.path [i!"split"])
                          .nil)))
                    (.bin
                      .add
                      (.bin
                        .sub
                        (.field (.path [i!"range"]) i!"end")
                        (.path [i!"split"]))
                      (.field
                        (.path [i!"self"])
                        i!"new_buf_offset")))))))
          (.last
            (.tuple
              (.cons
                (.path [i!"a"])
                (.cons (.path [i!"b"]) .nil))))))

/-- `ublox/src/parser.rs:321` -/
def parserRs_DualBuffer_take : Fn where
  name := i!"take"
  params := [i!"self", i!"count"]
  ret := i!""
  body :=
    .let_
      (.name i!"underlying_bytes")
      (.call
        [i!"core", i!"cmp", i!"min"]
        (.cons
          (.bin
            .sub
            (.meth
              (.field (.path [i!"self"]) i!"buf")
              i!"len"
              .nil)
            (.field (.path [i!"self"]) i!"off"))
          (.cons (.path [i!"count"]) .nil)))
      (.let_
        (.name i!"new_bytes")
        (.meth
          (.path [i!"count"])
          i!"saturating_sub"
          (.cons
            (.path [i!"underlying_bytes"])
            .nil))
        (.semi
          (.ite
            (.bin
              .gt
              (.path [i!"new_bytes"])
              (.bin
                .sub
                (.meth
                  (.field (.path [i!"self"]) i!"new_buf")
                  i!"len"
                  .nil)
                (.field
                  (.path [i!"self"])
                  i!"new_buf_offset")))
            (.semi .panic .nil)
            .nil)
          (.semi
            (.ite
              (.bin
                .eq
                (.path [i!"underlying_bytes"])
                (.int 0))
              (.let_
                (.name i!"offset")
                (.field
                  (.path [i!"self"])
                  i!"new_buf_offset")
                (.semi
                  (.addAssign
                    (.field
                      (.path [i!"self"])
                      i!"new_buf_offset")
                    (.path [i!"count"]))
                  (.semi
                    (.return_
                      (.call
                        [i!"Ok"]
                        (.cons
                          (.un
                            .ref
                            (.index
                              (.field
                                (.path [i!"self"])
                                i!"new_buf")
                              (.range
                                (.path [i!"offset"])
                                (.bin
                                  .add
                                  (.path [i!"offset"])
                                  (.path [i!"count"])))))
                          .nil)))
                    .nil)))
              .nil)
            (.semi
              (.ite
                (.bin
                  .eq
                  (.path [i!"new_bytes"])
                  (.int 0))
                (.let_
                  (.name i!"offset")
                  (.field (.path [i!"self"]) i!"off")
                  (.semi
                    (.addAssign
                      (.field (.path [i!"self"]) i!"off")
                      (.path [i!"count"]))
                    (.semi
                      (.return_
                        (.call
                          [i!"Ok"]
                          (.cons
                            (.un
                              .ref
                              (.index
                                (.field (.path [i!"self"]) i!"buf")
                                (.range
                                  (.path [i!"offset"])
                                  (.bin
                                    .add
                                    (.path [i!"offset"])
                                    (.path [i!"count"])))))
                            .nil)))
                      .nil)))
                .nil)
              (.semi
                (.ite
                  (.bin
                    .lt
                    (.meth
                      (.field (.path [i!"self"]) i!"buf")
                      i!"max_capacity"
                      .nil)
                    (.path [i!"count"]))
                  (.semi
                    (.return_
                      (.call
                        [i!"Err"]
                        (.cons
                          (.struct
                            [i!"ParserError", i!"OutOfMemory"]
                            (.cons
                              i!"required_size"
                              (.path [i!"count"])
                              .nil))
                          .nil)))
                    .nil)
                  .nil)
                (.semi
                  (.ite
                    (.bin
                      .lt
                      (.path [i!"new_bytes"])
                      (.bin
                        .sub
                        (.meth
                          (.field (.path [i!"self"]) i!"buf")
                          i!"max_capacity"
                          .nil)
                        (.meth
                          (.field (.path [i!"self"]) i!"buf")
                          i!"len"
                          .nil)))
                    (.let_
                      (.name i!"bytes_not_moved")
                      (.meth
                        (.field (.path [i!"self"]) i!"buf")
                        i!"extend_from_slice"
                        (.cons
                          (.un
                            .ref
                            (.index
                              (.field
                                (.path [i!"self"])
                                i!"new_buf")
                              (.rangeFrom
                                (.field
                                  (.path [i!"self"])
                                  i!"new_buf_offset"))))
                          .nil))
                      (.semi
                        (.addAssign
                          (.field
                            (.path [i!"self"])
                            i!"new_buf_offset")
                          (.bin
                            .sub
                            (.bin
                              .sub
                              (.meth
                                (.field
                                  (.path [i!"self"])
                                  i!"new_buf")
                                i!"len"
                                .nil)
                              (.field
                                (.path [i!"self"])
                                i!"new_buf_offset"))
                            (.path [i!"bytes_not_moved"])))
                        (.let_
                          (.name i!"off")
                          (.field (.path [i!"self"]) i!"off")
                          (.semi
                            (.addAssign
                              (.field (.path [i!"self"]) i!"off")
                              (.path [i!"count"]))
                            (.semi
                              (.return_
                                (.call
                                  [i!"Ok"]
                                  (.cons
                                    (.un
                                      .ref
                                      (.index
                                        (.field
                                          (.path [i!"self"])
                                          i!"buf")
                                        (.range
                                          (.path [i!"off"])
                                          (.bin
                                            .add
                                            (.path [i!"off"])
                                            (.path [i!"count"])))))
                                    .nil)))
                              .nil)))))
                    .nil)
                  (.semi
                    (.meth
                      (.field (.path [i!"self"]) i!"buf")
                      i!"drain"
                      (.cons
                        (.field (.path [i!"self"]) i!"off")
                        .nil))
                    (.semi
                      (.assign
                        (.field (.path [i!"self"]) i!"off")
                        (.int 0))
                      (.semi
                        (.meth
                          (.field (.path [i!"self"]) i!"buf")
                          i!"extend_from_slice"
                          (.cons
                            (.un
                              .ref
                              (.index
                                (.field
                                  (.path [i!"self"])
                                  i!"new_buf")
                                (.range
                                  (.field
                                    (.path [i!"self"])
                                    i!"new_buf_offset")
                                  (.bin
                                    .add
                                    (.field
                                      (.path [i!"self"])
                                      i!"new_buf_offset")
                                    (.path [i!"new_bytes"])))))
                            .nil))
                        (.semi
                          (.addAssign
                            (.field
                              (.path [i!"self"])
                              i!"new_buf_offset")
                            (.path [i!"new_bytes"]))
                          (.semi
                            (.addAssign
                              (.field (.path [i!"self"]) i!"off")
                              (.path [i!"count"]))
                            (.last
                              (.call
                                [i!"Ok"]
                                (.cons
                                  (.un
                                    .ref
                                    (.index
                                      (.field
                                        (.path [i!"self"])
                                        i!"buf")
                                      (.range
                                        (.int 0)
                                        (.path [i!"count"]))))
                                  .nil))))))))))))))

/-- `ublox/src/parser.rs:228-377` -/
def parserRs_DualBuffer_impl : Impl := ⟨[], i!"DualBuffer", [parserRs_DualBuffer_new, parserRs_DualBuffer_clear, parserRs_DualBuffer_drain, parserRs_DualBuffer_len, parserRs_DualBuffer_potential_lost_bytes, parserRs_DualBuffer_can_drain_and_take, parserRs_DualBuffer_peek_raw, parserRs_DualBuffer_take]⟩

/-- `ublox/src/parser.rs:379` -/
def parserRs_DualBuffer_Drop_drop : Fn where
  name := i!"drop"
  params := [i!"self"]
  ret := i!""
  body :=
    .semi
      (.meth
        (.field (.path [i!"self"]) i!"buf")
        i!"drain"
        (.cons
          (.field (.path [i!"self"]) i!"off")
          .nil))
      (.semi
        (.meth
          (.field (.path [i!"self"]) i!"buf")
          i!"extend_from_slice"
          (.cons
            (.un
              .ref
              (.index
                (.field (.path [i!"self"]) i!"new_buf")
                (.rangeFrom
                  (.field
                    (.path [i!"self"])
                    i!"new_buf_offset"))))
            .nil))
        .nil)

/-- `ublox/src/parser.rs:378-500` -/
def parserRs_DualBuffer_Drop_impl : Impl := ⟨[i!"Drop"], i!"DualBuffer", [parserRs_DualBuffer_Drop_drop]⟩

/-- `ublox/src/parser.rs:394` -/
def parserRs_UbxChecksumCalc_new : Fn where
  name := i!"new"
  params := []
  ret := i!"Self"
  body :=
    .last
      (.struct
        [i!"Self"]
        (.cons
          i!"ck_a"
          (.int 0)
          (.cons i!"ck_b" (.int 0) .nil)))

/-- `ublox/src/parser.rs:398` -/
def parserRs_UbxChecksumCalc_update : Fn where
  name := i!"update"
  params := [i!"self", i!"bytes"]
  ret := i!""
  body :=
    .let_
      (.name i!"a")
      (.field (.path [i!"self"]) i!"ck_a")
      (.let_
        (.name i!"b")
        (.field (.path [i!"self"]) i!"ck_b")
        (.semi
          (.for_
            i!"byte"
            (.meth
              (.path [i!"bytes"])
              i!"iter"
              .nil)
            (.semi
              (.assign
                (.path [i!"a"])
                (.field
                  (.meth
                    (.path [i!"a"])
                    i!"overflowing_add"
                    (.cons
                      (.un .deref (.path [i!"byte"]))
                      .nil))
                  i!"0"))
              (.semi
                (.assign
                  (.path [i!"b"])
                  (.field
                    (.meth
                      (.path [i!"b"])
                      i!"overflowing_add"
                      (.cons (.path [i!"a"]) .nil))
                    i!"0"))
                .nil)))
          (.semi
            (.assign
              (.field (.path [i!"self"]) i!"ck_a")
              (.path [i!"a"]))
            (.semi
              (.assign
                (.field (.path [i!"self"]) i!"ck_b")
                (.path [i!"b"]))
              .nil))))

/-- `ublox/src/parser.rs:409` -/
def parserRs_UbxChecksumCalc_result : Fn where
  name := i!"result"
  params := [i!"self"]
  ret := i!""
  body :=
    .last
      (.tuple
        (.cons
          (.field (.path [i!"self"]) i!"ck_a")
          (.cons
            (.field (.path [i!"self"]) i!"ck_b")
            .nil)))

/-- `ublox/src/parser.rs:378-500` -/
def parserRs_UbxChecksumCalc_impl : Impl := ⟨[], i!"UbxChecksumCalc", [parserRs_UbxChecksumCalc_new, parserRs_UbxChecksumCalc_update, parserRs_UbxChecksumCalc_result]⟩

/-- `ublox/src/parser.rs:420` -/
def parserRs_ParserIter_find_sync : Fn where
  name := i!"find_sync"
  params := [i!"self"]
  ret := i!""
  body :=
    .last
      (.methFn
        (.range
          (.int 0)
          (.meth
            (.field (.path [i!"self"]) i!"buf")
            i!"len"
            .nil))
        i!"find"
        i!"i"
        (.bin
          .eq
          (.index
            (.field (.path [i!"self"]) i!"buf")
            (.path [i!"i"]))
          (.path [i!"SYNC_CHAR_1"])))

/-- `ublox/src/parser.rs:424` -/
def parserRs_ParserIter_extract_packet : Fn where
  name := i!"extract_packet"
  params := [i!"self", i!"pack_len"]
  ret := i!""
  body :=
    .semi
      (.ite
        (.un
          .not
          (.meth
            (.field (.path [i!"self"]) i!"buf")
            i!"can_drain_and_take"
            (.cons
              (.int 6)
              (.cons
                (.bin
                  .add
                  (.path [i!"pack_len"])
                  (.int 2))
                .nil))))
        (.semi
          (.ite
            (.bin
              .gt
              (.meth
                (.field (.path [i!"self"]) i!"buf")
                i!"potential_lost_bytes"
                .nil)
              (.int 0))
            (.semi
              (.meth
                (.field (.path [i!"self"]) i!"buf")
                i!"drain"
                (.cons (.int 2) .nil))
              (.semi
                (.return_
                  (.call
                    [i!"Some"]
                    (.cons
                      (.call
                        [i!"Err"]
                        (.cons
                          (.struct
                            [i!"ParserError", i!"OutOfMemory"]
                            (.cons
                              i!"required_size"
                              (.bin
                                .add
                                (.path [i!"pack_len"])
                                (.int 2))
                              .nil))
                          .nil))
                      .nil)))
                .nil))
            .nil)
          (.semi
            (.return_ (.path [i!"None"]))
            .nil))
        .nil)
      (.let_
        (.name i!"checksummer")
        (.call [i!"UbxChecksumCalc", i!"new"] .nil)
        (.let_
          (.pair i!"a" i!"b")
          (.meth
            (.field (.path [i!"self"]) i!"buf")
            i!"peek_raw"
            (.cons
              (.range
                (.int 2)
                (.bin
                  .add
                  (.bin
                    .add
                    (.int 4)
                    (.path [i!"pack_len"]))
                  (.int 2)))
              .nil))
          (.semi
            (.meth
              (.path [i!"checksummer"])
              i!"update"
              (.cons (.path [i!"a"]) .nil))
            (.semi
              (.meth
                (.path [i!"checksummer"])
                i!"update"
                (.cons (.path [i!"b"]) .nil))
              (.let_
                (.pair i!"ck_a" i!"ck_b")
                (.meth
                  (.path [i!"checksummer"])
                  i!"result"
                  .nil)
                (.let_
                  (.pair i!"expect_ck_a" i!"expect_ck_b")
                  (.tuple
                    (.cons
                      (.index
                        (.field (.path [i!"self"]) i!"buf")
                        (.bin
                          .add
                          (.int 6)
                          (.path [i!"pack_len"])))
                      (.cons
                        (.index
                          (.field (.path [i!"self"]) i!"buf")
                          (.bin
                            .add
                            (.bin
                              .add
                              (.int 6)
                              (.path [i!"pack_len"]))
                            (.int 1)))
                        .nil)))
                  (.semi
                    (.ite
                      (.bin
                        .ne
                        (.tuple
                          (.cons
                            (.path [i!"ck_a"])
                            (.cons
                              (.path [i!"ck_b"])
                              .nil)))
                        (.tuple
                          (.cons
                            (.path [i!"expect_ck_a"])
                            (.cons
                              (.path [i!"expect_ck_b"])
                              .nil))))
                      (.semi
                        (.meth
                          (.field (.path [i!"self"]) i!"buf")
                          i!"drain"
                          (.cons (.int 2) .nil))
                        (.semi
                          (.return_
                            (.call
                              [i!"Some"]
                              (.cons
                                (.call
                                  [i!"Err"]
                                  (.cons
                                    (.struct
                                      [i!"ParserError", i!"InvalidChecksum"]
                                      (.cons
                                        i!"expect"
                                        (.call
                                          [i!"u16", i!"from_le_bytes"]
                                          (.cons
                                            (.array
                                              (.cons
                                                (.path [i!"expect_ck_a"])
                                                (.cons
                                                  (.path [i!"expect_ck_b"])
                                                  .nil)))
                                            .nil))
                                        (.cons
                                          i!"got"
                                          (.call
                                            [i!"u16", i!"from_le_bytes"]
                                            (.cons
                                              (.array
                                                (.cons
                                                  (.path [i!"ck_a"])
                                                  (.cons
                                                    (.path [i!"ck_b"])
                                                    .nil)))
                                              .nil))
                                          .nil)))
                                    .nil))
                                .nil)))
                          .nil))
                      .nil)
                    (.let_
                      (.name i!"class_id")
                      (.index
                        (.field (.path [i!"self"]) i!"buf")
                        (.int 2))
                      (.let_
                        (.name i!"msg_id")
                        (.index
                          (.field (.path [i!"self"]) i!"buf")
                          (.int 3))
                        (.semi
                          (.meth
                            (.field (.path [i!"self"]) i!"buf")
                            i!"drain"
                            (.cons (.int 6) .nil))
                          (.let_
                            (.name i!"msg_data")
                            (.match_
                              (.meth
                                (.field (.path [i!"self"]) i!"buf")
                                i!"take"
                                (.cons
                                  (.bin
                                    .add
                                    (.path [i!"pack_len"])
                                    (.int 2))
                                  .nil))
                              (.cons
                                (.ctor i!"Ok" [i!"x"])
                                (.path [i!"x"])
                                (.cons
                                  (.ctor i!"Err" [i!"e"])
                                  (.block
                                    (.semi
                                      (.return_
                                        (.call
                                          [i!"Some"]
                                          (.cons
                                            (.call
                                              [i!"Err"]
                                              (.cons
                                                (.path [i!"e"])
                                                .nil))
                                            .nil)))
                                      .nil))
                                  .nil)))
                            (.semi
                              (.return_
                                (.call
                                  [i!"Some"]
                                  (.cons
                                    (.call
                                      [i!"match_packet"]
                                      (.cons
                                        (.path [i!"class_id"])
                                        (.cons
                                          (.path [i!"msg_id"])
                                          (.cons
                                            (.un
                                              .ref
                                              (.index
                                                (.path [i!"msg_data"])
                                                (.rangeTo
                                                  (.bin
                                                    .sub
                                                    (.meth
                                                      (.path [i!"msg_data"])
                                                      i!"len"
                                                      .nil)
                                                    (.int 2)))))
                                            .nil))))
                                    .nil)))
                              .nil))))))))))))

/-- `ublox/src/parser.rs:468` -/
def parserRs_ParserIter_next : Fn where
  name := i!"next"
  params := [i!"self"]
  ret := i!""
  body :=
    .semi
      (.while_
        (.bin
          .gt
          (.meth
            (.field (.path [i!"self"]) i!"buf")
            i!"len"
            .nil)
          (.int 0))
        (.let_
          (.name i!"pos")
          (.match_
            (.meth
              (.path [i!"self"])
              i!"find_sync"
              .nil)
            (.cons
              (.ctor i!"Some" [i!"x"])
              (.path [i!"x"])
              (.cons
                (.ctor i!"None" [])
                (.block
                  (.semi
                    (.meth
                      (.field (.path [i!"self"]) i!"buf")
                      i!"clear"
                      .nil)
                    (.semi
                      (.return_ (.path [i!"None"]))
                      .nil)))
                .nil)))
          (.semi
            (.meth
              (.field (.path [i!"self"]) i!"buf")
              i!"drain"
              (.cons (.path [i!"pos"]) .nil))
            (.semi
              (.ite
                (.bin
                  .lt
                  (.meth
                    (.field (.path [i!"self"]) i!"buf")
                    i!"len"
                    .nil)
                  (.int 2))
                (.semi
                  (.return_ (.path [i!"None"]))
                  .nil)
                .nil)
              (.semi
                (.ite
                  (.bin
                    .ne
                    (.index
                      (.field (.path [i!"self"]) i!"buf")
                      (.int 1))
                    (.path [i!"SYNC_CHAR_2"]))
                  (.semi
                    (.meth
                      (.field (.path [i!"self"]) i!"buf")
                      i!"drain"
                      (.cons (.int 1) .nil))
                    (.semi .continue_ .nil))
                  .nil)
                (.semi
                  (.ite
                    (.bin
                      .lt
                      (.meth
                        (.field (.path [i!"self"]) i!"buf")
                        i!"len"
                        .nil)
                      (.int 6))
                    (.semi
                      (.return_ (.path [i!"None"]))
                      .nil)
                    .nil)
                  (.let_
                    (.name i!"pack_len")
                    (.meth
                      (.call
                        [i!"u16", i!"from_le_bytes"]
                        (.cons
                          (.array
                            (.cons
                              (.index
                                (.field (.path [i!"self"]) i!"buf")
                                (.int 4))
                              (.cons
                                (.index
                                  (.field (.path [i!"self"]) i!"buf")
                                  (.int 5))
                                .nil)))
                          .nil))
                      i!"into"
                      .nil)
                    (.semi
                      (.ite
                        (.bin
                          .gt
                          (.path [i!"pack_len"])
                          (.call
                            [i!"usize", i!"from"]
                            (.cons
                              (.path [i!"MAX_PAYLOAD_LEN"])
                              .nil)))
                        (.semi
                          (.meth
                            (.field (.path [i!"self"]) i!"buf")
                            i!"drain"
                            (.cons (.int 2) .nil))
                          (.semi .continue_ .nil))
                        .nil)
                      (.semi
                        (.return_
                          (.meth
                            (.path [i!"self"])
                            i!"extract_packet"
                            (.cons
                              (.path [i!"pack_len"])
                              .nil)))
                        .nil)))))))))
      (.last (.path [i!"None"]))

/-- `ublox/src/parser.rs:378-500` -/
def parserRs_ParserIter_impl : Impl := ⟨[], i!"ParserIter", [parserRs_ParserIter_find_sync, parserRs_ParserIter_extract_packet, parserRs_ParserIter_next]⟩

/-- `ublox/src/parser.rs:1-500`, all functions -/
def parserRs_code : List Impl :=
  [parserRs_UnderlyingBuffer_impl, parserRs_Vec_UnderlyingBuffer_impl, parserRs_FixedLinearBuffer_impl, parserRs_FixedLinearBuffer_Index_Range_impl, parserRs_FixedLinearBuffer_Index_impl, parserRs_FixedLinearBuffer_UnderlyingBuffer_impl, parserRs_Parser_Default_impl, parserRs_Parser_impl, parserRs_DualBuffer_Index_impl, parserRs_DualBuffer_impl, parserRs_DualBuffer_Drop_impl, parserRs_UbxChecksumCalc_impl, parserRs_ParserIter_impl]

end Ublox.Gen
