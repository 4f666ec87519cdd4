# Formal model of ublox-rs/ublox

The library under study is read as text from `/repo` and is not built or run.
The model is written in Lean 4 (4.33.0) under `lean/Verif`:

* `lean/Verif/Model/*.lean`: the definitions that model the code. Each cites the file and lines it
  models and says where it simplifies.
* `lean/Verif/Spec/*.lean`: the specifications, which do not use the model's own functions (they use
  its types, for instance the type of packet declarations).
* `lean/Verif/Props/*.lean`: the theorems that carry the properties of `properties.jsonl`, with an
  `example` beside them that shows a concrete case meeting the hypotheses.
* `lean/Verif/Lemmas/*.lean`: everything else that is needed for the proofs.

## Trusted base

* Lean's kernel (and the standard toolchain that feeds it).
* Axioms: at most `propext`, `Classical.choice`, `Quot.sound`; the table at the end lists them for
  each theorem. No axioms of our own, no `sorry`, no `native_decide`, no `bv_decide`. Facts about the
  complete packet tables are checked by kernel evaluation (`decide +kernel`).
* The transcription of the Rust text into the definitions of `Verif/Model`. For `ublox/src/parser.rs` it need
  not be trusted: C91 reads the text of the file and executes it. What is trusted there is that the strings in
  `Verif/Model/GenText.lean` are the file (`tools/checktext.py` compares them), the grammar in
  `Verif/Model/Code.lean` and the meaning of statements, expressions and library functions in
  `Verif/Model/Eval.lean`. (`tools/gencode.py` writes `GenText.lean`, `Model/GenCode.lean` and
  `Lemmas/GenCode.lean`; the kernel checks that the functions are those of the text.) C92 does the same for the
  hand-written functions of `ubx_packets.rs`, `ubx_packets/types.rs`, `ubx_packets/packets.rs` and
  `ubx_packets/cfg_val.rs:1-49`; there the meaning of the language is `Verif/Model/Exec.lean`. C93 reads the
  rest of `cfg_val.rs`; there the meaning of `macro_rules!` in `Verif/Model/Macro.lean` is trusted. C94 executes
  what the macros make, with the evaluator of C92. C95 and C96 read and execute the generators of
  `ublox_derive/src/output.rs`; there the meaning of the Rust of that file and of `quote!` in
  `Verif/Model/Quote.lean` is trusted. C97 does the same for `ublox_derive/src/types.rs`, with the meaning in
  `Verif/Model/Meth.lean`, and C98 for the macros of `ublox_derive/src/lib.rs`, with the meaning in
  `Verif/Model/LibMacros.lean`; the parsers of `input.rs` that these macros call are not executed from their text
  but modelled (`Verif/Model/Input.lean`). C100 reads `ublox/src/error.rs`, with the meaning of its
  implementations of `Display` in `Verif/Model/Messages.lean`.
* The packet, enum, flag and configuration-item tables `Verif/Model/Gen*.lean` are produced by the
  script `tools/gen.py` from the text of `packets.rs` and `cfg_val.rs`. The script is not needed to
  build and need not be trusted: the text of `packets.rs` and of the argument of `cfg_val!` stands
  verbatim in `Verif/Model/GenSource.lean`, and C89 proves in the kernel that the modelled lexer and the
  modelled macros (C67, C69) read this text as the tables. What is trusted is that the strings are those
  files (`tools/checktext.py` compares them) and the model of Rust's lexical structure in
  `Verif/Model/Lex.lean`. While C89 was built the lexer found one error of the script: it had lost two
  attributes of `CfgNav5FixMode`, without effect on any other property.
* For C57 and C58 the tables `Verif/Spec/Protocol.lean` and `Verif/Spec/Codes.lean`, which state the u-blox interface description. The
  document is not part of `/repo`; the tables are written from knowledge of it, independently of the
  declarations of the crate.
* `Model/Rust.lean` gives syntax and meaning of the part of Rust in which the macros write the generated code
  (`Model/Codegen.lean` has the code generators of `output.rs`, clause by clause).
* What is not code of `/repo` but has a meaning in the model: the primitive operations of Rust on
  integers and slices; `Vec`; IEEE 754 arithmetic (`Model/Float.lean`: exact rational operation and
  one rounding to nearest even, proved to be the rounding of IEEE 754 as defined over the numbers of
  binary32 and binary64 in `Spec/Ieee.lean`; NaN and infinities, `as` conversions with saturation, `round`);
  `chrono` (`Model/Time.lean`: its documented behaviour over the Gregorian calendar); `bitflags`;
  `core::str::from_utf8` (`Spec/Iter.lean` defines UTF-8 as the encodings of Unicode scalars; the
  model runs a validator that is proved equal to it); serde as the sequence of entries handed to the
  serializer.

## What is modelled

* `ublox/src/parser.rs`: all of it. `Vec<u8>` and `FixedLinearBuffer` as `UnderlyingBuffer`,
  `DualBuffer` with its drop handler, `Parser`, `ParserIter::next`, `extract_packet`, `find_sync`,
  `checksum`. The trait `UnderlyingBuffer` is a type class, so theorems about other
  implementations can be stated.
* `ublox/src/ubx_packets.rs`: checksum calculation, the traits, `MemWriter` as an arbitrary state
  machine, `UbxUnknownPacketRef`, `UbxPacketRequest`.
* `ublox/src/ubx_packets/packets.rs`: all packet declarations, enums and flag types as tables; all
  hand-written functions.
* `ublox/src/ubx_packets/cfg_val.rs`: `CfgKey`, `CfgVal`, all items, `CfgValSet` iteration and building.
* `ublox/src/ubx_packets/types.rs`: `Position`, `PositionECEF`, `Velocity`, date and time conversion,
  `FieldIter`.
* `ublox/src/error.rs`: the error values and their texts.
* `ublox_derive`: what `output.rs` generates (accessors, raw accessors, `validate`, builders,
  `create_packet`, `extend_to`, `match_packet`, `PacketRef`, enum and flag conversions,
  serialization) as an interpreter over declarations (`PackDesc`), following the generator clause by
  clause; the size computations of `types.rs`; all of `input.rs` over tokens, with the parts of `syn` that
  it uses.
* `examples/ublox-cli/src/main.rs`: `Device` with `update`, `wait_for_ack`, `read_port`; the message handler,
  the main loop, and from the values of the arguments on what is opened and written (not: the argument parser
  `clap`, text formatting, the crate `serialport`).

## What is not modelled

* `syn` apart from what `input.rs` uses, and the Rust compiler (types, borrows, lifetimes: `Model/Eval.lean`
  executes the text of `parser.rs` without checking them). The lexer and the division of a file into
  items are modelled as far as `packets.rs`, `parser.rs` and the argument of `cfg_val!` need them (`Model/Lex.lean`);
  everything else in them is refused by the model.
* How `core` formats numbers, floats and strings inside the texts of `Display` and `Debug` (modelled are the names,
  the order and the values that are handed to the formatter, and the texts of errors and status words); doc comments.
* How serde serializers render numbers, enums and flags; deserialization of the value types.
* Memory: allocation failure, layout, `unsafe` in the generated `transmute` (the model checks that
  the byte is the code of a variant), lifetimes. Returned references are modelled by the bytes they
  show.
* Of the example program `ublox-cli`: `clap`, `serialport` (an arbitrary sequence of answers), the
  printing. Benches, tests.

## Modelling conventions

* `u8` is `UInt8`; byte slices and arrays are `List UInt8`; `usize` values are `Nat`, with the
  largest `usize` as a parameter `M` where overflow matters: in the parser every `+` and `-` on
  `usize` is a checked operation that yields a panic value, so "no overflow" is part of "no panic".
* Arithmetic is that of a build with overflow checks. Where the theorems say that there is no panic no operation
  overflows, so a build without the checks computes the same.
* A Rust panic is an explicit error value (`Except Panic`), never a default value. Loops that might
  not terminate are `partial_fixpoint` definitions in `Option`, where `none` is non-termination, so
  termination is a theorem.
* `&mut self` methods return the new state. Drop handlers are explicit steps.
* What the code could not do because the compiler would refuse it is the panic value `illTyped`; the
  theorems show that it does not occur.

## Testing the theorems

`seeded/LOG.jsonl` records wrong versions of the model: the definition edited, the edit, the claim
that it breaks, the theorems that stopped holding and the theorems that were tightened because they
still held. The edits are made in a copy; every theorem that depends on a failing proof counts as
failing.

## Testing the model

The unit tests of the crate (buffers, parser, builders, serialization, `MonVer`; `ublox/src/parser.rs`,
`ublox/src/ubx_packets/packets.rs`, `ublox/tests/`) are replayed on the model in `Verif/Validation/`: each
`#guard` runs the definitions of the model on the input of a test and compares with what the test
asserts. `Validation/Float.lean` compares the floating point operations of the model with the native ones,
and `Validation/Codegen.lean` replays the tests of the macro crate (`ublox_derive/src/tests.rs`): the text of
the generated code is compared, token by token, with the text that the test expects. These are tests of
the model, not proofs, and no theorem depends on them.

## Findings

Properties that the code does not have; each is proved by a witness or, where it says "every", for all
inputs, in the theorem named. The property has the status `partial`.

* C11: with a `FixedLinearBuffer` of capacity 4 bytes are lost although iterators ran to the end.
* C18, C43: building a packet panics for NaN in a signed scaled field (`c18_nan_panics`, `c43_nan_panics`).
* C25: the accessor `mode` of `CfgPrtUart` panics for reserved data-bit or parity codes.
* C26: `TimTm2Flags::time_base` compares the two bits without shifting them: it returns `Receiver` for code 0 and panics for every other code, also for the documented GNSS (1) and UTC (2).
* C31: `CfgItfmConfig` and `CfgItfmConfig2` are not read back from their own words.
* C38: the payload length of `CfgValSet` wraps at 65536 and the maximum is not enforced.
* C39: `extend_to` on a non-empty output computes length and checksum at the wrong places
  (`c39_never_appends`: every non-empty output).
* C44: positions from NAV-HPPOSECEF are ten times too large; the altitude from NAV-HPPOSLLH adds
  millimetres as metres.
* C46: `MgaGpsEPH` can never be delivered (`MgaGpsEph` comes first); `CfgInf` and `CfgNavX5` are not
  in the list of receivable packets.
* C47: `AckAck`, `AckNak` and `MgaAck` serialize with a key that occurs twice.
* C48: `AidIniBuilder::set_time` stores the month from 0, never the day, and panics before 2000.
* C49: with a `FixedLinearBuffer` and an abandoned iterator bytes are glued across a gap.
* C51: a received position handed to AID-INI may lose one unit.
* C53: read-modify-write of CFG-PRT clears reserved bits; of CFG-ITFM changes its words.
* C54: a negative `ecef_vz` of NAV-VELECEF is read as a large positive number.
* C55: the macros accept a field of fixed or open size after one with a size function, but generate
  wrong offsets for it, and a `validate` that may panic (no packet of the crate is declared like that).
* C57: `MgaGpsIono` returns its coefficients without their scale factors; `MgaGpsEPH` scales with
  2e-31 and the like where 2^-31 is meant; `height_hp_meters` of NAV-HPPOSLLH is in millimetres;
  `mean_v` of TIM-SVIN is read as signed, `ground_speed` of NAV-PVT as unsigned.
* C58: the receiver modes of CFG-TMODE3 and the time grid and synchronisation mode of CFG-TP5 are
  numbers in the interface description but single bits in the crate; `NavStatusFlags2` takes the whole
  byte for the power save state although other bits of it are in use; "active" and "passive" antenna
  of CFG-ITFM are exchanged.
* C63 (example program): a refused message (ACK-NAK) is waited for without end, and so is an
  acknowledged one while the line is never quiet.
* C64 (example program): a NAV-PVT message with a fix whose date or time does not exist (for example second 60
  in a leap second) and a CFG-PRT message with a mode word without meaning make the program panic.
* C68: the macros accept and ignore: an argument of a field given twice (the last one counts); `from`, `is_valid`,
  `into` and `size_fn` without `map_type`; an attribute that says only `may_fail` or `get_as_ref` before
  another attribute. An attribute of any name on a field is read like `ubx`; `flags = ""` may be followed by a
  second `flags`; of `from` and `from_unchecked` on an enumeration the last one counts; `[u8; 0]` is a type
  without size. No declaration of the crate is affected (`c68_crate_partial`).
* C86: the documentation of `UnderlyingBuffer` calls `max_capacity` a *minimum* max capacity, so a buffer may hold
  more.  With such a buffer (a `Vec` for which a limit is reported, say) the parser panics: an iterator that is dropped
  early copies all pending bytes, and the next call of `next` computes `max_capacity() - (len() - off)`, which
  underflows (`c86_roomy_panics`; without overflow checks the value wraps around).
* C66 (observation, no user-visible effect): `KeyId::item_id` keeps 8 of the 12 bits of the item number, so two
  items of one group can have the same `item_id` (`item_id_ambiguous`); nothing in the crate uses it.
* C65 (example program): odd and even parity are exchanged, both when the port is opened and in the CFG-PRT
  message that is sent; the baud rate to configure is read under the wrong name (`baud` instead of `cfg-baud`),
  so 9600 is always sent, and with debug assertions `clap` panics.

## Plan per property

* **C01** Model Vec, FixedLinearBuffer, DualBuffer, ParserIter with checked arithmetic and explicit panics, parametric in a lawful UnderlyingBuffer; invariant (`off <= len`, `new_off <= new.len`) preserved by every operation, every operation returns `ok`; lifted to all session histories by induction.
* **C02** `next` is a loop with fuel removed by a well-founded measure (pending length); prove the consumption bound and idempotence of None.
* **C03** Soundness of the reference decoder + refinement of `next` to it; events carry ghost positions in the stream.
* **C04** Reference decoder on concatenations of frames and separators, by induction on the list, transported by refinement.
* **C05** Refinement: concrete parser (Vec) = reference decoder defined on lists only.
* **C06** Compositionality of the reference decoder `decode (a++b)`, transported by refinement, induction on the list of chunks.
* **C07** For capacity >= MAX+7 the capacity branch is dead: refinement to the same reference decoder.
* **C08** Case analysis of `extract_packet` under the invariant for arbitrary capacity; general relation `Run cap` between streams and results.
* **C09** Events of the model; match_packet total; induction over runs.
* **C10** Invariant over histories: results so far ++ decode(buffer) = decode(all bytes).
* **C11** Invariant `len <= cap`; pending bytes after None <= max 5 cap. The property is false at capacity 4 (witness); `_partial` for capacity >= 5.
* **C12** Bound on the remainder of the reference decoder.
* **C13** Direct, from the refinement.
* **C14** Refinement of FixedLinearBuffer to a capped list, per operation and for operation sequences; memmove model fails when out of bounds.
* **C15** Fold algebra; closed form with prefix sums over Nat modulo 256.
* **C16** Linear algebra of the two sums modulo 256; transported to the first result of the parser.
* **C17** Interpreter for builders gives frames; C04 gives the parser result.
* **C18** Interpreter model of into_packet_bytes as array writes at computed offsets; spec is concatenation of encoded fields.
* **C19** Abstract MemWriter (state machine that may fail at any write); trace of writes.
* **C20** Round trip per raw type and generic over descriptions; per map type for the existing ones.
* **C21** Generic over descriptions by induction on the field list; table facts by kernel evaluation of the complete table.
* **C22** Decision theorem for the interpreter model of validate.
* **C23** List search over the generated dispatch table.
* **C24** Instance of the dispatch model on the three descriptions, for all payloads.
* **C25** False for CfgPrtUart::mode: witness; `_partial` for all other accessors.
* **C26** Decision logic on bit vectors; false for TimTm2Flags::time_base: witness; `_partial` for the rest.
* **C27** Generic over variant lists.
* **C28** Generic over variant lists.
* **C29** Generic over widths and flag lists.
* **C30** Bit-vector reasoning on all 2^32 words.
* **C31** False (config words are not shifted back on decode, antenna not shifted on encode): witnesses; `_partial` for what holds.
* **C32** Iterators as step functions on (data, offset); induction on the number of blocks.
* **C33** Model of position/from_utf8 (UTF-8 validity as in Lean core, on byte arrays or an own validator).
* **C34** Interpreter with size functions.
* **C35** Generated table of items; value codec per type; generic lemma lifted over the table.
* **C36** Kernel evaluation on the complete table (Nodup / all).
* **C37** Induction on the list of values.
* **C38** Model of extend_to; false above 65535 payload bytes (length field wraps, witness); `_partial` below.
* **C39** False for non-empty output: witness; `_partial` for empty output.
* **C40** Direct; parser part from C04.
* **C41** chrono modelled by the proleptic Gregorian calendar (days since epoch); decision theorem.
* **C42** Floats modelled as rationals with a concrete round-to-nearest-even; relative error bound; all raw values.
* **C43** Same float model with NaN and infinities; signed variants panic on NaN: witness; `_partial` for non-NaN.
* **C44** Exact rational semantics of the conversions; false for NavHpPosEcef and NavHpPosLlh altitude: witnesses; `_partial` for the rest.
* **C45** Direct on the packet model.
* **C46** Kernel evaluation on the table plus witnesses; false for MgaGpsEPH (shadowed by MgaGpsEph): proof of unreachability; `_partial` for the rest.
* **C47** Key lists from the table; false for AckAck, AckNak, MgaAck (duplicate keys): witnesses; `_partial` for the rest.
* **C48** Integer part of the setters on the calendar model; false w.r.t. the protocol (month is zero based, day missing): witness; `_partial`.
* **C49** False (bytes that do not fit are dropped silently when an iterator is abandoned): witness; `_partial`: the frames are a subsequence of the fed bytes.
* **C50** Rounding lemma for integer times literal, lifted over the table of scaled fields.
* **C51** From C44 and C48; false (one unit lost): witness; `_partial` with the bound of one unit.
* **C52** Induction over the blocks of `collect_seq`, on top of C32 and C47.
* **C53** `convert` followed by `into_raw` is the identity on the wire form, field by field (enums,
  flags, scaled numbers from C42); false for UART modes with reserved bits and for CFG-ITFM: witnesses;
  `_partial` for the rest.
* **C54** From C21; false for negative `ecef_vz`: witness; `_partial`.
* **C55** Model of the checks of `parse_packet_description`; offsets of the generator against positions
  defined inductively, for arbitrary declarations; false for fields after one with a size function:
  witnesses; `_partial` for the rest.
* **C56** Model of `Default` for builders; every field's default encodes to zero bytes except three, by
  table; the frame and what other setters leave alone from C18, the way back from C20 and C23.
* **C57** Independent table of the interface description; the comparison with the declarations over the
  whole table, lifted to all payloads with C21, C23, C50 and to all builders with C18; false for some
  accessors: witnesses; `_partial` for the rest.
* **C58** Independent table of codes; the comparison with the types over the whole table, lifted to all
  numbers with C27 to C29 and to accessors with C57; false for some: witnesses; `_partial` for the rest.
* **C59** `EnumDesc.extend`, `EnumDesc.compiles`, `FlagsDesc.extend`: the checks of the two macros and of the
  compiler. Arbitrary declarations; the size check of the flags macro by a permutation argument.
* **C60** `Spec/Junk.lean` describes such streams; induction over decoder steps, runs and histories with
  the invariant that the remaining frames are ahead of the pending bytes.
* **C61** The five declarations from the table; the UTF-8 validator against encodings of characters.
* **C62** `Device` of the example program over an arbitrary sequence of answers of the port; loop
  invariant: the parser holds the undecided rest of the reference decoder.
* **C63** `wait_for_ack` as a loop over `update`; C62 for every round, divergence by induction over the
  fixed point.
* **C64** The message handler of the example program and its main loop (`partial_fixpoint`); which packets
  make the handler panic is stated on the bytes of frames; C62 for every round, divergence as in C63.
* **C65** The settings that the example program sends as a function of the command line arguments (arbitrary
  record); frame by C18, written frames and acknowledgements by C63.
* **C66** A separate table of the configuration items of the interface description: names, groups, numbers, types
  with their constants; keys are computed from these. Compared row by row with the table of the crate (kernel
  evaluation over both whole tables), lifted to all values with the lemmas of C35.
* **C67** The macros' input stage over tokens: one fold over the attribute's entries, one loop over the arguments
  of a field. Specification: a grammar (which token sequences write which entries) and the meaning of the
  entries; both directions proved. Crate: evaluation over the tokens of all declarations.
* **C68** Consequence of C67: when the last argument of each kind is every argument. Negation by witnesses.
* **C69** As C67 for enumerations, flags and the list of packets.
* **C70** Model of `NavBbrPredefinedMask` and its conversion (Model/Reset.lean); the frame by C18 for an arbitrary mask.
* **C71** `Conforms` from the interface description (Spec/EndToEnd.lean); conforming payloads are valid (table over all
  packets and fields that can be refused), no earlier packet of the list takes them (table over pairs with the same
  class and id), then C60 (streams with junk), C57 (accessors) and C62 (update loop).
* **C72** The code generators are modelled on a small Rust syntax with an evaluator (Model/Rust.lean,
  Model/Codegen.lean). Refinement: evaluating the generated accessors and `validate` equals the interpreter over
  declarations. `RecvLinks` states what the named functions are; Spec/Link.lean resolves the names in a program,
  and Lemmas/LinkCrate.lean shows that the crate is such a program.
* **C73** The same for the code of builders, with `runMut` for methods that change an argument, and `SendLinks`.
* **C74** The same for enumerations and flags, with `EnumLinks` and `FlagsLinks`; acceptance as an equivalence.
* **C75** The same for the list of packets: `match_packet`, `class_and_msg_id` and `MAX_PAYLOAD_LEN` equal the dispatch
  of Model/Dispatch.lean, with `ParseLinks`, in a program and for the crate; with C23 in terms of `Valid`.
* **C76** The same for `Debug` and serde: entries by induction over the fields, with `AccessorLinks` and `UnionLinks`;
  with C52 for the values.
* **C77** `Display` of the errors as functions to texts (`Model/Error.lean`); numerals are specified by how they are
  read (`Spec/Text.lean`); injectivity by cutting the text at the first character that cannot belong to a numeral or name.
* **C78** With C05: the reference decoder on a prefix of a stream, by induction over the frames; the number of complete
  frames is given by the ends of the frames.
* **C79** The hand-written `Debug` implementations against a table name ↦ bits; injectivity from the separators.
* **C80** The bound from what a parser can hold at one call; sufficiency from C04 and C81; necessity by feeding single
  bytes.
* **C81** The invariant of C60 with other frames allowed before the next frame asked about.
* **C82** Effect of replacing one byte on the two sums; the two effects cancel exactly under the stated condition.
* **C83** Table of short names, kernel-checked against all declarations; then C47, C52 and C57.
* **C84** Pairwise comparison of all listed types (lengths or first codes differ), then the characterisation
  of dispatch for an arbitrary list.
* **C85** The history of a session is split; the bytes kept in between are a suffix of bounded length (C12)
  and the packets of the second part embed in them and what follows (C03).
* **C86** A contract for buffers in terms of the bytes they hold (Spec/OwnBuffer.lean).  Any two buffers that keep it
  and never hold more than `max_capacity` are related by "same bytes, same capacity"; every operation of `DualBuffer`
  and every call of the parser preserves the relation and gives equal answers.  Equality with `FixedLinearBuffer`
  follows; absence of panics from C01's lemmas.
* **C87** The two sums of the damaged bytes differ from those of the frame by the plain and the weighted sum of the changes (induction over the covered bytes); compared with the changes of the checksum bytes this is the exact condition. Sums with two non-zero terms give the corollaries.
* **C88** Bisimulation: buffers that hold the same bytes and have the same capacity stay so under every operation of the parser (the relation of C86), also when an iterator is leaked; the stale part of the slice is not in the relation.
* **C89** The text stands in the model as string literals. A finite automaton forms the tokens, total functions the items; both are compatible with joining texts (induction), so the kernel evaluates piece by piece and the results are put together. Spelling and reading back of arbitrary tokens, comments and numbers by induction over the characters.
* C90: `Spec/Ieee.lean` defines the numbers of binary32 and binary64 and rounding to nearest, ties to even, over them; prove that the rounding of `Model/Float.lean` is this one (`round_rounds`), that it has one result, and that each step of accessors, builders, positions and `set_position` is such a rounding.
* C91: `Model/Code.lean` has a grammar and `Model/Eval.lean` an evaluator for the Rust of `parser.rs`; the text is embedded. The kernel checks that the grammar reads the functions of `Model/GenCode.lean` in it; symbolic execution (a set of rewrite rules, `Lemmas/Eval.lean`) shows that each equals the model; loops by induction, `next` by fixpoint induction; `Spec/Client.lean` is a client, whose sessions are compared by induction on the history.
* C92: `Model/Exec.lean` is a second evaluator, with typed values, for the functions of the packets; the texts are those of C89 and three more. The kernel checks that the grammar reads `Model/GenCode2.lean` in them. Symbolic execution with the rewrite rules of `Lemmas/Exec.lean` shows function by function that the result is that of the model; loops by induction; enumerations by cases.
* C93: `Model/Macro.lean` expands `macro_rules!`, `Model/CfgProgram.lean` has the result as syntax. The rules are read from the text by the kernel; that they make the stated tokens of any table, and that the grammar reads the stated functions in these tokens, is proved by induction over the rows, each step being an evaluation with symbolic rest.
* C94: `Exec.run` on the functions that `Macro.programOf` finds in `cfg_val.rs`; for an arbitrary table (`FineItems`), by induction over the rows for the lookups and the arms of `match`, then for that of the file. Bytes are compared with `Spec.cfgKv`, values with `Spec/CfgText.lean`.
* C95: `Quote.fnsOf` on the text of `output.rs`, `Quote.emitted` runs a generator on an arbitrary description; the tokens are those of `Spec/Emit.lean` for the code of the model. Each round of the loop over the fields is evaluated by the kernel with the components of the field as variables; the loop by induction.
* C96: as C95, for `generate_send_code_for_packet`, `generate_code_for_parse`, `generate_code_to_extend_enum` and `generate_code_to_extend_bitflags`; the loops over fields, packets, variants, bytes and bits by induction, with the variables of the loop as an explicit environment.
* C97: a grammar and an evaluator for the Rust of `types.rs` (and of `lib.rs`); structures are records with a name, methods are found by the name of the record. The functions are read out of the text and executed on the descriptions of the model; `fields_size` by induction over the fields with the variables of the loop as an explicit environment. A relation between the values of the two evaluators (`Spec.SameValue`) connects it to C95 and C96.
* C98: the macros of `lib.rs`, in the grammar of C97, with an evaluator whose values are declarations, descriptions and tokens; parsers of `input.rs` from the model, generators of `output.rs` executed (C95, C96). Execution by cases over the outcome of the parser and of the generators.
* C99: composition of C89, C98 and C72-C75, for everything declared in `packets.rs`.
* C100: the arms of the three implementations of `Display` are read out of the text of `error.rs` by the kernel; what they write is computed with symbolic numbers and names and compared with the specification of C77.

## Status

Axioms: P = `propext`, C = `Classical.choice`, Q = `Quot.sound`. Names are in `Ublox.Props`.

* **C01** Feeding the parser never panics: proved. All histories, FixedLinearBuffer of any capacity: no panic. Vec: no panic except the documented capacity overflow of Vec beyond isize::MAX bytes. Parametric in match_packet; instantiated with the crate dispatch.
  * `c01_flb_no_panic` (PCQ)
  * `c01_vec_no_panic` (PCQ)
  * `c01_vec_endless` (PCQ)
* **C02** Every next() call makes progress and iteration is finite and fused: proved. Termination of the partial_fixpoint loop, at least two bytes per answer, fused, and exhaustion is reachable.
  * `c02_progress_and_fused` (PCQ)
  * `c02_finite` (PCQ)
  * `c02_vec_exhaustion_reachable` (PCQ)
  * `c02_flb_exhaustion_reachable` (PCQ)
* **C03** Returned packets are exactly well-formed frames of the stream, in order: proved. Vec: every call pattern. Fixed buffer: capacity >= 5 and exhausted iterators (see C49 for the rest).
  * `c03_vec_packets_embedded` (PCQ)
  * `c03_flb_packets_embedded` (PCQ)
* **C04** A clean stream is decoded completely: proved. Vec, and fixed buffers that hold the largest frame but one byte.
  * `c04_vec_clean_stream` (PCQ)
  * `c04_flb_clean_stream` (PCQ)
* **C05** Corrupted input is resynchronised deterministically: proved. Equality with the list-based reference decoder Spec.decode, plus its characteristic behaviour.
  * `c05_vec_reference_decoder` (PCQ)
  * `c05_flb_reference_decoder` (PCQ)
  * `c05_resume_after_bad_checksum` (PCQ)
  * `c05_too_long_is_skipped` (PCQ)
  * `c05_next_frame_found` (PCQ)
* **C06** Chunk boundaries do not matter: proved. Follows from equality with the reference decoder of the concatenation.
  * `c06_chunking_irrelevant` (PCQ)
* **C07** A fixed buffer that is large enough behaves like the growable one: proved. Capacity >= MAX_PAYLOAD_LEN + 7.
  * `c07_large_flb_equals_vec` (PCQ)
* **C08** OutOfMemory is reported only for packets that do not fit: proved. For any lawful buffer; the dispatch must not answer OutOfMemory itself (true for the crate, C09).
  * `c08_oom_only_if_too_large` (PCQ)
  * `c08_vec_never_oom` (PCQ)
  * `c08_available_frame_delivered` (PCQ)
* **C09** Only framing errors come out of next(): proved. With the dispatch of the crate (all 55 listed packet types).
  * `c09_vec_every_frame_delivered` (PCQ)
  * `c09_vec_only_framing_errors` (PCQ)
  * `c09_flb_only_framing_errors` (PCQ)
* **C10** Abandoning an iterator loses nothing with a growable buffer: proved. Vec, any number of next calls per iterator.
  * `c10_abandoning_loses_nothing` (PCQ)
  * `c10_complete_after_final_exhaustion` (PCQ)
* **C11** A fixed buffer never overflows and exhausting the iterator loses no byte: partial. False at the documented minimum capacity 4 (c11_capacity_four_loses); proved for capacity >= 5, and these are exactly the capacities for which it holds (c11_capacity_iff).
  * `c11_never_overflows` (PCQ)
  * `c11_exhausted_loses_nothing_partial` (PCQ)
  * `c11_pending_kept` (PCQ)
  * `c11_capacity_iff` (PCQ)
  * `c11_capacity_four_loses` (PCQ)
* **C12** Memory use is bounded: proved. Any lawful buffer and any parser state.
  * `c12_bounded_memory` (PCQ)
* **C13** buffer_len and is_buffer_empty report the undecoded tail: proved. Vec-backed parser.
  * `c13_empty_iff_len_zero` (PQ)
  * `c13_buffer_is_undecoded_suffix` (PCQ)
  * `c13_drop_without_next` (PCQ)
* **C14** FixedLinearBuffer is a faithful bounded byte queue: proved. All operation sequences; single-byte indexing between length and capacity returns a stale byte (unspecified in the queue).
  * `c14_flb_is_bounded_queue` (PCQ)
  * `c14_queue_deterministic` (PQ)
* **C15** The checksum is the UBX Fletcher-8 sum and can be computed piecewise: proved. Both implementations, every partition.
  * `c15_one_shot` (PCQ)
  * `c15_builder_pieces` (PCQ)
  * `c15_parser_pieces` (PCQ)
* **C16** Corruption of one byte or a swap of neighbours in a frame is always detected: proved. Any lawful buffer, any position in the stream, any continuation.
  * `c16_single_byte` (PCQ)
  * `c16_adjacent_swap` (PCQ)
* **C17** Built packets are accepted by the parser unchanged: proved. Sequences of built packets of any types, any chunking, Vec and fixed buffers that hold the frames.
  * `c17_vec` (PCQ)
  * `c17_flb` (PCQ)
* **C18** Builder output has the documented frame layout: partial. False for NaN in a signed scaled field (c18_nan_panics; c18_returns_iff characterises it). Otherwise proved for all packets of the crate, and for arbitrary declarations (c18_any_declaration).
  * `c18_any_declaration` (PCQ)
  * `c18_layout_partial` (PCQ)
  * `c18_returns_iff` (PCQ)
  * `c18_returned` (PCQ)
  * `c18_nan_panics` (PCQ)
  * `c18_all_but_cfgValSet` (PCQ)
* **C19** create_packet writes the same bytes as into_packet_bytes, or a prefix and the error: proved. Any writer; exact sequence of calls, contents after success and after failure; Vec.
  * `c19_create_packet` (PCQ)
  * `c19_content` (PCQ)
  * `c19_vec` (PCQ)
* **C20** Field accessors return what the builder was given: proved. All packet types with builder and accessors; scaled fields: see C42.
  * `c20_read_back` (PCQ)
  * `c20_same_type` (PCQ)
* **C21** Accessors read disjoint ranges that tile the payload: proved. All readable packet declarations (generated table), including the announced sizes of ESF-MEAS.
  * `c21_accessor` (PCQ)
  * `c21_tiles` (PCQ)
  * `c21_local` (PCQ)
  * `c21_tail` (PCQ)
  * `c21_esf_meas` (PCQ)
* **C22** A payload is accepted as a typed packet exactly when it is valid for it: proved. All readable packet declarations; outcome characterised by iff.
  * `c22_validate` (PCQ)
* **C23** Dispatch is deterministic, total and keeps identity: proved. The complete list of define_recv_packets.
  * `c23_dispatch` (PCQ)
* **C24** CFG-PRT variants are told apart by port id: proved. 
  * `c24_cfg_prt` (PCQ)
* **C25** Accessors of a delivered packet never panic: partial. False: CfgPrtUart.mode panics for 5 or 6 data bits and reserved parity (c25_uart_mode_panics). Proved for every other accessor and for every mode word with a meaning.
  * `c25_accessors_partial` (PCQ)
  * `c25_uart_mode_panics` (PCQ)
  * `c25_uart_mode_exact` (PCQ)
* **C26** Interpretation methods of flag wrappers never panic and decode the documented bits: partial. FixStatusInfo, NavSatSvFlags, TimTpFlags, TimTpRefInfo: exact. TimTm2Flags: all but time_base, which panics for every code but 0, so for the documented GNSS and UTC time bases (c26_timTm2_timeBase_violated).
  * `c26_fixStatusInfo` (PQ)
  * `c26_navSatSvFlags` (PCQ)
  * `c26_timTpFlags` (PQ)
  * `c26_timTpRefInfo` (PQ)
  * `c26_timTm2Flags_partial` (PQ)
  * `c26_timTm2_timeBase_violated` (PQ)
* **C27** Open enums lose no information: proved. All open enums of the crate (generated table).
  * `c27_open_enums` (PCQ)
  * `c27_from_exhaustive` (none)
* **C28** Closed enums are decoded only after validation: proved. All closed enums of the crate (generated table).
  * `c28_closed_enums` (PCQ)
* **C29** Bit-flag types keep every bit: proved. All bitflags types of the crate (generated table).
  * `c29_flags_keep_bits` (PQ)
* **C30** UartMode survives the wire format: proved. 
  * `c30_uart_from` (PCQ)
  * `c30_uart_into` (PQ)
  * `c30_uart_roundtrip` (PCQ)
* **C31** CFG-ITFM configuration survives a read-modify-write cycle: partial. Encoding of CfgItfmConfig and reading of CfgItfmConfig2 are exact. Violated: CfgItfmConfig reads thresholds with a wrong shift, CfgItfmConfig2 ors the antenna code unshifted (c31_config_violated, c31_config2_violated). c31_config_survives_iff and c31_config2_survives_iff say exactly which words survive.
  * `c31_config_survives_iff` (PCQ)
  * `c31_config2_survives_iff` (PCQ)
  * `c31_config_into` (PCQ)
  * `c31_config_new` (PCQ)
  * `c31_config_rmw_partial` (PCQ)
  * `c31_config_violated` (PQ)
  * `c31_config2_into_partial` (PCQ)
  * `c31_config2_new_partial` (PQ)
  * `c31_config2_from` (PCQ)
  * `c31_config2_violated` (PQ)
* **C32** Block iterators of delivered packets visit every block exactly once: proved. All six iterators; theorem quantifies over every delivered payload; usize::MAX only bounded below by the payload length. num_svs / num_meas / num_words are not consulted by the code.
  * `c32_all` (PCQ)
  * `c32_iterators` (PCQ)
  * `c32_items` (PCQ)
* **C33** MON-VER strings are the text before the first NUL: proved. Delivery characterised by an iff; strings as text before the first NUL, UTF-8 defined as encoding of Unicode scalars.
  * `c33_delivered` (PCQ)
  * `c33_strings` (PCQ)
* **C34** ESF-MEAS optional parts follow the flags: proved. Delivery characterised by an iff; number and content of measurements, and calibration tag.
  * `c34_delivered` (PCQ)
  * `c34_parts` (PCQ)
* **C35** Configuration values round-trip: proved. Whole table of 434 items; parse is characterised by iff.
  * `c35_write` (PQ)
  * `c35_parse` (PCQ)
  * `c35_parse_iff` (PCQ)
  * `c35_prefix_free` (PCQ)
* **C36** Configuration keys are unique and self-describing: proved. Kernel evaluation over the complete table.
  * `c36_keys` (PQ)
  * `c36_key_parts` (P)
  * `c36_value_size` (PCQ)
  * `c36_one_bit` (PQ)
* **C37** CfgValIter returns exactly the values it was created from: proved. 
  * `c37_iter` (PCQ)
  * `c37_too_small` (PQ)
* **C38** CFG-VALSET packets are well-formed: partial. Proved for payloads up to 65535 bytes, exact result in all cases. False beyond: the length wraps (c38_length_wraps).
  * `c38_frame_partial` (PCQ)
  * `c38_injective` (PCQ)
  * `c38_parsed` (PCQ)
  * `c38_length_wraps` (PCQ)
  * `c38_max_not_enforced` (PCQ)
* **C39** extend_to appends a well-formed frame: partial. False for every non-empty output (c39_never_appends, c39_overwrites); proved for empty output.
  * `c39_empty_partial` (PCQ)
  * `c39_never_appends` (PCQ)
  * `c39_overwrites` (PCQ)
* **C40** Poll requests are well-formed: proved. Vec and fixed buffers of at least 7 bytes.
  * `c40_request` (PCQ)
  * `c40_request_for` (PCQ)
  * `c40_parsed` (PCQ)
  * `c40_parsed_flb` (PCQ)
* **C41** NAV-PVT time conversion is exact and rejects exactly the invalid fields: proved. All delivered NAV-PVT payloads; chrono (an external crate) is modelled after its documentation, the calendar is specified independently.
  * `c41_time` (PCQ)
  * `c41_unique` (PCQ)
* **C42** Scaled fields survive building and reading: proved. All scaled fields of all packets that can be built and received; floats modelled as rationals with IEEE rounding.
  * `c42_scaled_round_trip` (PCQ)
* **C43** Scaling to raw integers saturates and never panics: partial. False for NaN in signed fields (c43_nan_panics), and next to the middle of two integers the other one may be chosen (c43_not_nearest). Finite values: nearest integer up to the rounding of the float product (distance at most 1/2 + 1/50 for f32, 1/2 + 1/400000 for f64), exact saturation; infinities and unsigned NaN proved; exact ties go away from zero (c43_ties).
  * `c43_finite_partial` (PCQ)
  * `c43_ties` (PCQ)
  * `c43_infinite` (PCQ)
  * `c43_nan_panics` (PCQ)
  * `c43_nan_unsigned` (PCQ)
  * `c43_not_nearest` (PCQ)
* **C44** Position conversions use the documented units: partial. False for NavHpPosEcef, which is ten times too large (c44_ecef_decimetres, c44_ecef_wrong), and for the altitude of NavHpPosLlh unless height_hp_msl is 0 (c44_hp_altitude_as_metres, c44_hp_altitude_wrong). Proved for NavPosLlh, NavPvt, NavVelNed and latitude/longitude of NavHpPosLlh, with error bounds.
  * `c44_navPosLlh` (PCQ)
  * `c44_navPvt_position` (PCQ)
  * `c44_navPvt_velocity` (PCQ)
  * `c44_navVelNed` (PCQ)
  * `c44_navHpPosLlh_partial` (PCQ)
  * `c44_hp_altitude_as_metres` (PCQ)
  * `c44_hp_altitude_wrong` (PCQ)
  * `c44_ecef_decimetres` (PCQ)
  * `c44_ecef_wrong` (PCQ)
* **C45** Acknowledge matching is exact: proved. Both acknowledgement packets and both set_rate_for functions.
  * `c45_delivered` (PCQ)
  * `c45_ack` (PCQ)
  * `c45_nak` (PCQ)
  * `c45_exclusive` (PCQ)
  * `c45_set_rate` (PCQ)
* **C46** Every packet type is deliverable: partial. False for MgaGpsEPH (shadowed by MgaGpsEph, c46_eph_shadowed) and for CfgInf/CfgNavX5 (not listed, c46_unlisted). Proved for all other packet types (c46_deliverable_iff).
  * `c46_limit` (PCQ)
  * `c46_vec_bounded` (PCQ)
  * `c46_flb_bounded` (PCQ)
  * `c46_deliverable_partial` (PCQ)
  * `c46_eph_shadowed` (PCQ)
  * `c46_unlisted` (PCQ)
  * `c46_deliverable_iff` (PCQ)
* **C47** Serialised packets are maps with distinct keys: partial. False for AckAck, AckNak, MgaAck (c47_duplicate_keys). Proved for all other packet types; c47_distinct_iff: keys are distinct exactly for these.
  * `c47_entries` (PCQ)
  * `c47_distinct_partial` (PCQ)
  * `c47_distinct_iff` (PCQ)
  * `c47_duplicate_keys` (PCQ)
* **C48** AID-INI time and position setters encode their argument: partial. set_position proved completely. set_time: no panic from 2000 on, nanoseconds, flags, frame condition and message bytes proved; YYMM is always one too small and the day is never stored (c48_date_wrong, c48_day_wrong); years before 2000 panic.
  * `c48_set_position` (PCQ)
  * `c48_set_time_partial` (PCQ)
  * `c48_date_wrong` (PCQ)
  * `c48_day_wrong` (PCQ)
  * `c48_before_2000` (PQ)
  * `c48_message` (PCQ)
* **C49** Fixed buffers deliver only contiguous frames whatever the call pattern: partial. False: a 6-byte buffer glues bytes across lost ones (c49_flb_glues_bytes). Proved: the frames are a subsequence of the fed bytes for every call pattern; they are contiguous, disjoint, in order and complete when every iterator is exhausted or its chunk fits in the free space (c49_flb_contiguous_if_room, c49_flb_complete_if_room).
  * `c49_flb_frames_sublist_partial` (PCQ)
  * `c49_flb_glues_bytes` (PCQ)
  * `c49_flb_contiguous_if_room` (PCQ)
  * `c49_flb_complete_if_room` (PCQ)
* **C50** Scaled accessors return raw value times scale: proved. All scaled fields of all readable packets.
  * `c50_scaled` (PCQ)
  * `c50_unscaled` (PCQ)
* **C51** A received position can be handed back unchanged: partial. False: 13e-7 degrees comes back as 12e-7 (c51_lost_unit). Proved: the received integer or its neighbour toward zero.
  * `c51_navPosLlh_partial` (PCQ)
  * `c51_navPvt_partial` (PCQ)
  * `c51_lost_unit` (PCQ)
* **C52** Serialised repeated groups are complete: proved. All packets and delivered payloads; the serde serializer is represented by the sequence of entries handed to it. Unknown frames: c52_unknown.
  * `c52_serialized` (PCQ)
  * `c52_unknown` (PCQ)
* **C53** Read, modify, write keeps the rest of a configuration: partial. False for reserved bits of the CFG-PRT mode word (c53_uart_reserved_bits_lost) and for CFG-ITFM (c53_itfm_changed). Proved for every field not affected by these, including scaled ones; c53_rebuild_iff gives the exact condition.
  * `c53_kept_partial` (PCQ)
  * `c53_rebuild_partial` (PCQ)
  * `c53_rebuild_iff` (PCQ)
  * `c53_uart_reserved_bits_lost` (PCQ)
  * `c53_itfm_changed` (PCQ)
* **C54** Cartesian velocities are signed: partial. False for every negative ecef_vz (c54_negative_vz), which is declared unsigned; proved for the other components and for non-negative ecef_vz.
  * `c54_velocity_partial` (PCQ)
  * `c54_negative_vz` (PCQ)
  * `c54_vz_iff` (PCQ)
* **C55** Accepted declarations are laid out as declared: partial. False for declarations with a field of fixed or open size after one with a size function (c55_wrong_position, c55_validate_panics). Proved for all other accepted declarations; every declaration of the crate is of that kind (c55_crate).
  * `c55_layout_partial` (PCQ)
  * `c55_accepted` (PCQ)
  * `c55_crate` (PCQ)
  * `c55_wrong_position` (PCQ)
  * `c55_validate_panics` (PCQ)
* **C56** Default builders are neutral and sendable: proved. AID-INI cannot be received and CFG-INF and CFG-NAVX5 are not in the list of received packets (C46), so the read-back part is about the other seven. The defaults of the field types are c56_raw, c56_enums and c56_flags.
  * `c56_which` (PCQ)
  * `c56_rest` (PCQ)
  * `c56_default` (PCQ)
  * `c56_received` (PCQ)
  * `c56_enums` (P)
  * `c56_flags` (PCQ)
  * `c56_raw` (P)
* **C57** Messages are read and written as the interface description says: partial. Against an independent table of the interface description (Spec/Protocol.lean). False for 33 accessors (departures, c57_departures): ground_speed of NAV-PVT, ecef_vz of NAV-VELECEF and mean_v of TIM-SVIN have the wrong signedness, height_hp_meters of NAV-HPPOSLLH is in millimetres, MgaGpsIono has no scale factors, MgaGpsEPH has powers of ten times two instead of powers of two. Proved for all other accessors and all builders; what these 33 return instead is c57_departures_read.
  * `c57_reading_partial` (PCQ)
  * `c57_slice_partial` (PCQ)
  * `c57_accepts` (PCQ)
  * `c57_departures_received` (PCQ)
  * `c57_building` (PCQ)
  * `c57_complete` (PCQ)
  * `c57_departures` (PCQ)
  * `c57_departures_read` (PCQ)
  * `c57_departures_listed` (PCQ)
* **C58** Named values and flags mean what the interface description says: partial. Against an independent table of codes (Spec/Codes.lean). False for the receiver modes of CFG-TMODE3, the time grid and sync mode of CFG-TP5 (c58_flags_wrong), the power save state of NAV-STATUS when spoofing detection reports anything (c58_enums_wrong) and the antenna setting of CFG-ITFM (c58_antenna_wrong). Proved for all other flags and variants.
  * `c58_flags_partial` (PCQ)
  * `c58_flags_complete` (PQ)
  * `c58_flags_wrong` (PQ)
  * `c58_enums_partial` (PCQ)
  * `c58_enums_sent` (PQ)
  * `c58_enums_complete` (PQ)
  * `c58_enums_wrong` (PQ)
  * `c58_antenna_wrong` (PCQ)
  * `c58_reading_flags_partial` (PCQ)
  * `c58_reading_enums_partial` (PCQ)
* **C59** Accepted enumerations and flag types are faithful: proved. For arbitrary declarations; the check of the flags macro compares set sizes and is proved to mean different single bits. What rustc refuses by itself (equal names or discriminants, match not exhaustive) is EnumDesc.compiles, characterised by c59_enum_compiles.
  * `c59_enum_from` (PCQ)
  * `c59_enum_unchecked` (PCQ)
  * `c59_flags_accepted` (PCQ)
  * `c59_flags` (PCQ)
  * `c59_flags_extend` (PCQ)
  * `c59_enum_extend` (none)
  * `c59_enum_compiles` (PCQ)
  * `c59_crate` (PCQ)
* **C60** Other bytes between frames neither hide nor damage a frame: proved. Invariant along the session: the frames not yet returned are still ahead. For every dispatch, growable and fixed buffers.
  * `c60_vec_no_frame_lost` (PCQ)
  * `c60_vec_all_frames` (PCQ)
  * `c60_flb_all_frames` (PCQ)
  * `c60_vec_no_sync` (PCQ)
* **C61** Information messages give their text: proved. UTF-8 is the set of encodings of lists of Unicode scalar values.
  * `c61_text` (PCQ)
* **C62** Device::update hands every received packet to the callback once: proved. The port is an arbitrary sequence of answers; updates over any number of calls compose.
  * `c62_update` (PCQ)
  * `c62_returns` (PCQ)
  * `c62_panics` (PCQ)
  * `c62_endless` (PCQ)
  * `c62_calls` (PCQ)
* **C63** wait_for_ack ends when the acknowledgement has arrived and the line is quiet: proved. Also shows that a refused message and a busy line make the program wait for ever.
  * `c63_returns` (PCQ)
  * `c63_no_panic` (PCQ)
  * `c63_ends` (PCQ)
  * `c63_never` (PCQ)
  * `c63_refused` (PCQ)
  * `c63_busy_line` (PCQ)
* **C64** The example program shows every packet and stops only for known reasons: proved. Port and reads arbitrary; the loop ends exactly in the named cases (c64_crashes, c64_stops, c64_runs).
  * `c64_navPvt` (PCQ)
  * `c64_monVer` (PCQ)
  * `c64_handler` (PCQ)
  * `c64_crashes` (PCQ)
  * `c64_stops` (PCQ)
  * `c64_runs` (PCQ)
  * `c64_printed` (PCQ)
* **C65** The example program configures the receiver as asked: partial. Everything as asked except parity (even and odd are exchanged, c65_parity_exchanged, c65_port_opened) and baud rate (always 9600, or a panic with debug assertions, c65_baud_ignored); c65_not_as_asked shows that the full statement is false. clap itself is not modelled: the arguments are arbitrary values.
  * `c65_sends` (PCQ)
  * `c65_as_asked_partial` (PCQ)
  * `c65_parity_exchanged` (PCQ)
  * `c65_baud_ignored` (PCQ)
  * `c65_not_as_asked` (PCQ)
  * `c65_port_opened` (PCQ)
  * `c65_start` (PCQ)
  * `c65_reached` (PCQ)
  * `c65_start_configured` (PCQ)
* **C66** Configuration items are those of the interface description: proved. The table of the interface description (Spec/Keys.lean) was written from the description, names are compared without case and separators.
  * `c66_keys` (PCQ)
  * `c66_writes` (PCQ)
  * `c66_reads` (PCQ)
  * `c66_parts` (PCQ)
* **C67** The macros read a packet declaration exactly as it is written: proved. From tokens on; syn is modelled as far as used (Model/Input.lean says how). The tokens of the declarations of the crate are in Model/GenDecls.lean; that they are those of the source text is C89.
  * `c67_header` (PCQ)
  * `c67_header_order` (PQ)
  * `c67_arguments` (PCQ)
  * `c67_field` (PCQ)
  * `c67_declaration` (PCQ)
  * `c67_unambiguous` (PCQ)
  * `c67_crate` (PCQ)
  * `c67_code_determines` (PCQ)
  * `c67_checks` (PCQ)
* **C68** Nothing written in a declaration is silently ignored: partial. False in general: a repeated argument, a function without map_type, and a whole attribute before another one are ignored (c68_argument_ignored). Proved: arguments given once each, functions with a type, are all in effect; header keys cannot be repeated; in the crate nothing is ignored. c68_effective_iff gives the exact condition for fields.
  * `c68_effective_partial` (PQ)
  * `c68_effective_iff` (PQ)
  * `c68_header_partial` (PCQ)
  * `c68_crate_partial` (PCQ)
  * `c68_argument_ignored` (PCQ)
* **C69** The macros read enumerations, flags and the list of packets exactly as written: proved. As C67.
  * `c69_attributes` (PQ)
  * `c69_enum` (PCQ)
  * `c69_flags` (PCQ)
  * `c69_list` (PQ)
  * `c69_crate_enums` (P)
  * `c69_crate_flags` (P)
  * `c69_crate_list` (PCQ)
  * `c69_crate_extends` (PQ)
* **C70** Resetting the receiver sends the documented mask and mode: proved. The constants that ubx_extend_bitflags adds for the reserved bits make COLD_START all sixteen bits.
  * `c70_any_mask` (PCQ)
  * `c70_start` (PCQ)
  * `c70_sections` (P)
* **C71** Messages of a receiver arrive under their type and with their values: proved. Conforms (Spec/EndToEnd.lean) is written from the interface description; the accessors are covered for all fields except the departures of C57.
  * `c71_accepted` (PCQ)
  * `c71_receivable` (PCQ)
  * `c71_vec` (PCQ)
  * `c71_vec_exact` (PCQ)
  * `c71_flb` (PCQ)
  * `c71_updates` (PCQ)
* **C72** The generated code for receiving computes what the declaration says: proved. The meaning of the generated code is given by the evaluator of Model/Rust.lean; the generators (Model/Codegen.lean) follow output.rs and are compared with the unit tests of the macro crate. Names in generated code are resolved in Spec/Link.lean.
  * `c72_recv` (PCQ)
  * `c72_linked` (PCQ)
  * `c72_crate` (PCQ)
  * `c72_validate` (PCQ)
* **C73** The generated code for sending computes what the declaration says: proved. Builder values have the types of the fields (what the compiler asks for).
  * `c73_fixed` (PCQ)
  * `c73_dynamic` (PCQ)
  * `c73_refused` (PQ)
  * `c73_linked` (PCQ)
  * `c73_crate` (PCQ)
* **C74** The generated code of enumerations and flags computes what the declaration says: proved. from_bits_truncate and bits of the bitflags crate are given by their documented behaviour (FlagsLinks).
  * `c74_enum_accepted` (PQ)
  * `c74_enum` (PCQ)
  * `c74_flags_accepted` (PCQ)
  * `c74_flags` (PCQ)
  * `c74_crate_enums` (PCQ)
  * `c74_crate_flags` (PCQ)
* **C75** The generated code for the list of packets dispatches in the order of the list: proved. Names are resolved by parseX of Spec/Link.lean: constants, validate and max_u16 are generated code themselves.
  * `c75_list` (PCQ)
  * `c75_linked` (PCQ)
  * `c75_crate` (PCQ)
  * `c75_dispatch` (PCQ)
* **C76** The generated code for debug output and serialization shows every field: proved. The serializer and the formatter are modelled as the list of entries given to them and do not fail. What FieldIter does is that of C52.
  * `c76_packet` (PCQ)
  * `c76_union` (PCQ)
  * `c76_linked` (PCQ)
  * `c76_crate_debug` (PCQ)
  * `c76_crate` (PCQ)
  * `c76_delivered` (PCQ)
* **C77** The text of an error tells which error it is: proved. Formatting of integers by the standard library is modelled as the usual numeral (digits); that the numeral means the number is proved.
  * `c77_message` (PCQ)
  * `c77_injective` (PCQ)
  * `c77_vec_reported` (PCQ)
  * `c77_flb_reported` (PCQ)
  * `c77_validate` (PCQ)
  * `c77_date_time` (none)
  * `c77_date_text` (P)
  * `c77_mem_text` (P)
  * `c77_mem_writer` (PCQ)
* **C78** A packet comes out as soon as its last byte has arrived: proved. At every moment at which the iterator is exhausted; decode_prefix is the statement about the reference decoder.
  * `c78_vec_prompt` (PCQ)
  * `c78_flb_prompt` (PCQ)
* **C79** The debug texts of status words name every part and tell its bits: proved. Debug of core (debug_struct, bool, derived Debug of enums) is modelled as documented, without the alternate flag.
  * `c79_fix_status` (PQ)
  * `c79_sv_flags` (PCQ)
  * `c79_fix_status_same` (PCQ)
  * `c79_sv_flags_same` (PCQ)
* **C80** The capacity that a frame needs is its length minus one: proved. c80_capacity is an equivalence for every frame; c80_smallest is the claim of the documentation (36 bytes, NAV-POSLLH).
  * `c80_bound` (PCQ)
  * `c80_capacity` (PCQ)
  * `c80_smallest` (PCQ)
* **C81** Messages arrive whatever else is sent in between: proved. Generalises C60 and C71: other frames may be in between if they do not reach into the frames asked about; for fixed buffers only the latter have to fit.
  * `c81_vec_wanted` (PCQ)
  * `c81_flb_wanted` (PCQ)
  * `c81_vec` (PCQ)
  * `c81_flb` (PCQ)
  * `c81_updates` (PCQ)
* **C82** Which damage of two bytes goes unnoticed: proved. Exact condition for all pairs of bytes of class, id and payload; the length field and the sync bytes are not covered (there the frame boundaries change).
  * `c82_two_bytes` (PCQ)
  * `c82_odd_distance` (PCQ)
* **C83** Printed and serialized values stand under the right name: proved. Against an independent table of short names (Spec/Names.lean). c83_described leaves out the accessors named in C57 and UART ports with meaningless mode words (C25).
  * `c83_serialized` (PCQ)
  * `c83_entries` (PCQ)
  * `c83_debug` (PCQ)
  * `c83_described` (PCQ)
* **C84** The order of the list of packets does not matter: proved. All permutations; equivalence with the condition on the two types for MGA-GPS-EPH.
  * `c84_one_type` (PCQ)
  * `c84_order_iff` (PCQ)
* **C85** A packet is held back by a bounded number of bytes: proved. The packets returned later embed in the last bytes and what follows; c85_delay_reached shows that the bound is sharp.
  * `c85_vec_delay` (PCQ)
  * `c85_flb_delay` (PCQ)
  * `c85_delay_reached` (PCQ)
* **C86** A buffer of one's own serves as well as the provided ones: partial. Proved for buffers that never hold more than max_capacity, by a simulation between any two such buffers (Lemmas/Sim.lean). False for buffers that can hold more, which the documentation allows (minimum max capacity): c86_roomy_panics, a subtraction in can_drain_and_take underflows.
  * `c86_like_fixed_partial` (PCQ)
  * `c86_new_partial` (PCQ)
  * `c86_roomy_panics` (PCQ)
* **C87** Exactly which damage of a frame goes unnoticed: proved. Exact condition for every damage outside sync characters and length field, with the cases of neighbours and of a checksum byte; damage of the length field changes where the frame ends and is not covered.
  * `c87_exact` (PCQ)
  * `c87_neighbours` (PCQ)
  * `c87_second_checksum` (PCQ)
  * `c87_first_checksum` (PCQ)
* **C88** What a buffer held before has no influence: proved. For any two states with the same length and received bytes, for new parsers over slices with any contents, and for a slice that an earlier parser has used.
  * `c88_same_from_then` (PCQ)
  * `c88_old_bytes` (PCQ)
  * `c88_used_again` (PCQ)
* **C89** The interface is the one written in the source files: proved. The text stands verbatim in Model/GenSource.lean; the lexical structure of Rust is modelled as far as the two texts need it, anything else is refused.
  * `c89_declarations` (PCQ)
  * `c89_interface` (PCQ)
  * `c89_cfg_items` (PCQ)
  * `c89_tokens` (PCQ)
  * `c89_blank` (PCQ)
  * `c89_parts` (PCQ)
  * `c89_words` (PQ)
  * `c89_keywords` (none)
  * `c89_decimal` (PCQ)
  * `c89_hexadecimal` (PCQ)
  * `c89_exponent` (PCQ)
  * `c89_point` (PCQ)
* **C90** Physical values are correctly rounded at every step: proved. c90_rounding: rounding to nearest, ties to even, defined over the set of numbers of binary32 and binary64 (Spec/Ieee.lean), has exactly one result. c90_accessor, c90_builder, c90_positions, c90_hp_position, c90_ecef, c90_set_position: each step of the code is such a rounding. (Whether scales and units are the documented ones is C44 and C50; here only the arithmetic.)
  * `c90_rounding` (PCQ)
  * `c90_accessor` (PCQ)
  * `c90_builder` (PCQ)
  * `c90_positions` (PCQ)
  * `c90_hp_position` (PCQ)
  * `c90_ecef` (PCQ)
  * `c90_set_position` (PCQ)
* **C91** The parser is the one written in parser.rs: proved. The text stands verbatim in Model/GenText.lean; Model/Code.lean is the grammar and Model/Eval.lean the meaning of the part of Rust that it uses (anything else is refused). c91_vec, c91_fixed, c91_default_methods, c91_dual, c91_checksum, c91_parser, c91_iter, c91_next, c91_next_endless: function by function; c91_session: any use by a client; c91_vec_reference_decoder and c91_flb_no_panic: C05 and C01 for the text itself.
  * `c91_readable` (PCQ)
  * `c91_keywords` (PCQ)
  * `c91_vec` (PCQ)
  * `c91_fixed` (PCQ)
  * `c91_default_methods` (PCQ)
  * `c91_dual` (PCQ)
  * `c91_checksum` (PCQ)
  * `c91_parser` (PCQ)
  * `c91_iter` (PCQ)
  * `c91_next` (PCQ)
  * `c91_next_endless` (PCQ)
  * `c91_session` (PCQ)
  * `c91_vec_reference_decoder` (PCQ)
  * `c91_flb_no_panic` (PCQ)
* **C92** The hand-written functions of the packets are those in the text: proved. The texts stand verbatim in Model/GenText.lean and Model/GenSource.lean; Model/Code.lean is the grammar and Model/Exec.lean the meaning. c92_functions: the complete list of functions; one theorem per family of functions. In c92_aiding the time has fields as chrono has them; c92_sensors needs a usize of at least 16 bits. IsCrate takes enumerations, flags and configuration items from the tables that C89 reads from the text.
  * `c92_readable` (PCQ)
  * `c92_functions` (PCQ)
  * `c92_fix_status` (PCQ)
  * `c92_satellite` (PCQ)
  * `c92_time_pulse` (PCQ)
  * `c92_interference` (PCQ)
  * `c92_serial_port` (PCQ)
  * `c92_settings` (PCQ)
  * `c92_configuration_values` (PCQ)
  * `c92_strings` (PCQ)
  * `c92_iterators` (PCQ)
  * `c92_conversions` (PCQ)
  * `c92_acknowledgements` (PCQ)
  * `c92_sensors` (PCQ)
  * `c92_scale_back` (PCQ)
  * `c92_aiding` (PCQ)
  * `c92_framing` (PCQ)
* **C93** The configuration items are what the macros in cfg_val.rs make of its table: proved. Model/Macro.lean models macro_rules!: matching of tokens, expressions and types with repetitions, transcription, replacement of calls inside of items and expressions. Model/CfgProgram.lean states the result as syntax, for any table. c93_expansion: the whole file (Gen.cfgFileRs); c93_tables: any table; c93_items: name, key and type of each structure.
  * `c93_expansion` (PCQ)
  * `c93_tables` (PCQ)
  * `c93_items` (PCQ)
* **C94** The functions that the macros of cfg_val.rs make do what their documentation says: proved. The program is the four texts with the functions that Macro.programOf finds after expansion of cfg_val.rs (IsWhole); the evaluator of C92 runs it, without any built-in for CfgVal. Lemmas/Whole* prove the result for every table with distinct, unreserved names and keys whose size code fits the type (FineItems), Lemmas/WholeTable that the table of the file is one.
  * `c94_readable` (PCQ)
  * `c94_items` (PCQ)
  * `c94_values` (PCQ)
  * `c94_parse` (PCQ)
  * `c94_round_trip` (PCQ)
  * `c94_iter` (PCQ)
* **C95** The code for receiving a packet is what the generators in output.rs emit: proved. Quote.fnsOf reads the functions out of the complete text of output.rs, Quote.emitted executes one of them (Model/Quote.lean is the meaning of the part of Rust and of quote! that the file uses). Spec/Emit.lean has the tokens of the code of the model (Model/Codegen.lean), whose behaviour C72-C75 describe. By induction over the fields. The methods of a description (types.rs) are in C97. The remaining generators are in C96.
  * `c95_readable` (PCQ)
  * `c95_types` (PCQ)
  * `c95_recv` (PCQ)
  * `c95_crate` (PCQ)
* **C96** The code for sending, for the list of packets, for enumerations and for flags is what the generators in output.rs emit: proved. As C95, for the other generators. The emitted tokens are given by Spec/Emit.lean for the code of Model/Codegen.lean, whose behaviour C73-C75 describe. Hypotheses: names are names, a list of packets and an enumeration are not empty, flags have at most 64 bits (the macro accepts u8, u16 and u32 only). By induction over the fields, packets, variants and bits. The texts of error messages are not compared.
  * `c96_send` (PCQ)
  * `c96_list` (PCQ)
  * `c96_enum` (PCQ)
  * `c96_flags` (PCQ)
  * `c96_crate_send` (PCQ)
  * `c96_crate_list` (PCQ)
  * `c96_crate_enums` (PCQ)
  * `c96_crate_flags` (PCQ)
* **C97** The methods of a description are those in types.rs: proved. Meth.fnsOf reads the functions out of the complete text of types.rs and of lib.rs, Meth.run executes one of them (Model/Meth.lean is the meaning of the part of Rust that they use). The loop of fields_size by induction, the rest by cases. c97_called connects it to the methods that the execution of output.rs uses (C95, C96). c97_overflow: the panic on overflow is reached exactly when the sum is too large, if all sizes are known.
  * `c97_readable` (PCQ)
  * `c97_new` (PCQ)
  * `c97_field` (PCQ)
  * `c97_fixed` (PCQ)
  * `c97_sizes` (PCQ)
  * `c97_overflow` (PCQ)
  * `c97_called` (PCQ)
  * `c97_crate` (PCQ)
* **C98** The macros in lib.rs emit the code of a declaration, or a compile error: proved. Meth.fnsOf reads the functions out of the complete text of lib.rs, Lib.expand executes a macro (Model/LibMacros.lean is the meaning of the part of Rust that they use). The generators of output.rs that they call are executed from their text too (C95, C96); the parsers of input.rs are those of the model (Model/Input.lean, C67-C69). A union is only a name.
  * `c98_readable` (PCQ)
  * `c98_packet` (PCQ)
  * `c98_enum` (PCQ)
  * `c98_flags` (PCQ)
  * `c98_list` (PCQ)
  * `c98_wrong_item` (PCQ)
  * `c98_crate` (PCQ)
* **C99** From the characters of the source files to the behaviour of the packets: proved. Composition of C89 (text of packets.rs to declarations), C98 (macros of lib.rs and generators of output.rs executed) and C72-C75 (the generated code executed). The parsers of input.rs are modelled, not executed from their text. The syntax trees that C72-C75 execute are connected to the emitted tokens by the printer of Spec/Emit.lean, not by a parser of Rust.
  * `c99_readable` (PCQ)
  * `c99_receiving` (PCQ)
  * `c99_sending` (PCQ)
  * `c99_dispatch` (PCQ)
  * `c99_enums` (PCQ)
  * `c99_flags` (PCQ)
* **C100** The texts of errors are those in error.rs: proved. Msg.messagesOf reads the implementations of Display out of the complete text of error.rs, Msg.declsOf the declarations of the enumerations, Msg.display is what they write (Model/Messages.lean is the meaning of match, write_str and write! with the placeholders {} and {:x}). Compared with the specification of C77 (Spec/Text.lean). An error of the formatter is left out.
  * `c100_readable` (PCQ)
  * `c100_declared` (PCQ)
  * `c100_no_other` (PCQ)
  * `c100_parser` (PCQ)
  * `c100_message` (PCQ)
  * `c100_injective` (PCQ)
  * `c100_date` (PCQ)
  * `c100_mem` (PCQ)
