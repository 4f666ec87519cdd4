import Verif.Spec.Source
import Verif.Lemmas.GenSource
import Verif.Props.Input

/-!
# C89: the interface is the one written in the source files

From the characters of `packets.rs` and of the argument of `cfg_val!` to the descriptions that all
other properties are about.
-/

namespace Ublox.Props
open Spec Gen Src Spec.Source

/-! ## The files -/

/-- The items of `packets.rs` that call a macro are the declarations of `Model/GenDecls.lean`, in their
order, and there are no others. -/
theorem c89_declarations : ∃ l, itemsOf (codes (String.join packetsRs)) = some l ∧
    packetsOf l = packetDecls ∧ enumsOf l = enumDecls ∧ flagDeclsOf l = flagsDecls ∧ listsOf l = [recvDecl] :=
  ⟨_, packetsRs_items, rfl, rfl, rfl, rfl⟩

/-- From the text of `packets.rs` to the descriptions of all packets, enumerations, flags and the list
of received packets. -/
theorem c89_interface : ∃ l, itemsOf (codes (String.join packetsRs)) = some l ∧
    (packetsOf l).map (fun s => (s.kind, Syn.parsePacketDescription s)) =
      allPackets.map (fun d => (d.kind, .ok (packetCode d))) ∧
    (enumsOf l).map Syn.parseUbxEnumType = allEnums.map .ok ∧
    (flagDeclsOf l).map Syn.parseBitflags =
      allFlags.map (fun d => .ok (d, if d.from_ then some .from else none, some .reserved)) ∧
    (listsOf l).map Syn.parseIdentsList =
      [.ok ⟨"PacketRef", "UbxUnknownPacketRef", recvPackets.map (·.name)⟩] := by
  obtain ⟨l, hl, hp, he, hf, hr⟩ := c89_declarations
  refine ⟨l, hl, ?_, ?_, ?_, ?_⟩
  · rw [hp]; exact c67_crate
  · rw [he]; exact c69_crate_enums
  · rw [hf]; exact c69_crate_flags
  · rw [hr, List.map_singleton, c69_crate_list]

/-- The rows in the argument of `cfg_val!` are the items of the configuration interface. -/
theorem c89_cfg_items : rowsOf (codes (String.join cfgValRs)) = some cfgItems := by
  rw [cfgValRs_rows]
  decide +kernel

/-- Both texts are there, and something is in them. -/
example : packetDecls.length = 66 ∧ enumDecls.length = 15 ∧ flagsDecls.length = 28 ∧ cfgItems.length = 434 := by
  decide +kernel

/-! ## The reading of texts -/

private theorem isDigit_iff (c : Nat) : isDigit c = true ↔ digit c := by
  simp [isDigit, digit]

private theorem isIdCont_iff (c : Nat) : isIdCont c = true ↔ idChar c := by
  simp [isIdCont, isIdStart, isDigit, idChar]
  omega

private theorem isIdStart_iff (c : Nat) : isIdStart c = true ↔ idChar c ∧ ¬ digit c := by
  simp [isIdStart, idChar, digit]
  omega

private theorem isSpace_iff (c : Nat) : isSpace c = true ↔ c = 32 ∨ c = 9 ∨ c = 10 ∨ c = 13 := by
  simp [isSpace]
  omega

private theorem run_cons {s : St} {c : Nat} {cs : List Nat} (s' : St) (h : step s c = ([], s')) :
    run s (c :: cs) = run s' cs := by
  simp only [run, h, List.nil_append]

private theorem run_ident (cs rest : List Nat) (h : ∀ d ∈ cs, idChar d) (rev : List Nat) :
    run (.ident rev) (cs ++ rest) = run (.ident (cs.reverse ++ rev)) rest := by
  induction cs generalizing rev with
  | nil => rfl
  | cons c cs ih =>
    have hc := (isIdCont_iff c).mpr (h c (by simp))
    rw [List.cons_append, run_cons (.ident (c :: rev)) (by simp [step, hc]),
      ih fun d hd => h d (by simp [hd])]
    simp

private theorem run_num (cs rest : List Nat) (h : ∀ d ∈ cs, idChar d) (rev : List Nat) :
    run (.num rev) (cs ++ rest) = run (.num (cs.reverse ++ rev)) rest := by
  induction cs generalizing rev with
  | nil => rfl
  | cons c cs ih =>
    have hc := (isIdCont_iff c).mpr (h c (by simp))
    rw [List.cons_append, run_cons (.num (c :: rev)) (by simp [step, hc]),
      ih fun d hd => h d (by simp [hd])]
    simp

private theorem run_str (cs rest : List Nat) (h : ∀ d ∈ cs, d ≠ 34 ∧ d ≠ 92) (rev : List Nat) :
    run (.str rev) (cs ++ rest) = run (.str (cs.reverse ++ rev)) rest := by
  induction cs generalizing rev with
  | nil => rfl
  | cons c cs ih =>
    have hc := h c (by simp)
    rw [List.cons_append, run_cons (.str (c :: rev)) (by simp [step, hc]),
      ih fun d hd => h d (by simp [hd])]
    simp

private theorem run_comment (cs rest : List Nat) (h : ∀ d ∈ cs, d ≠ 10) :
    run .comment (cs ++ 10 :: rest) = run .start rest := by
  induction cs with
  | nil => simp [run, step]
  | cons c cs ih =>
    have hc := h c (by simp)
    rw [List.cons_append, run_cons .comment (by simp [step, hc]),
      ih fun d hd => h d (by simp [hd])]

private theorem run_start_digit {c : Nat} (hc : digit c) (rest : List Nat) :
    run .start (c :: rest) = run (.num [c]) rest := by
  have h1 : isSpace c = false := by
    rw [Bool.eq_false_iff, ne_eq, isSpace_iff]; unfold digit at hc; omega
  have h2 : isIdStart c = false := by
    rw [Bool.eq_false_iff, ne_eq, isIdStart_iff]; exact fun h => h.2 hc
  rw [run_cons (.num [c]) (by simp [step, Src.start, h1, h2, (isDigit_iff c).mpr hc])]

private theorem run_num_end (rev : List Nat) : run (.num rev) [32] = ([.num rev.reverse], .start) := by
  simp [run, step, after, Src.start, isSpace, isIdCont, isIdStart, isDigit]

private theorem lex_spell {t : LTok} (h : Proper t) : lex (spell t) = some [t] := by
  rw [lex_iff]
  cases h with
  | @ident c cs hc hd h =>
    have h1 : isSpace c = false := by
      rw [Bool.eq_false_iff, ne_eq, isSpace_iff]; unfold idChar at hc; omega
    show run .start (c :: (cs ++ [32])) = _
    rw [run_cons (.ident [c]) (by simp [step, Src.start, h1, (isIdStart_iff c).mpr ⟨hc, hd⟩]),
      run_ident _ _ h]
    simp [run, step, after, Src.start, isSpace, isIdCont, isIdStart, isDigit]
  | @num c cs hc h =>
    show run .start (c :: (cs ++ [32])) = _
    rw [run_start_digit hc, run_num _ _ h, run_num_end]
    simp
  | @point c cs d ds hc h hd h' =>
    show run .start (c :: (cs ++ 46 :: d :: ds ++ [32])) = _
    have hd' := (isDigit_iff d).mpr hd
    rw [run_start_digit hc, List.append_assoc, run_num _ _ h]
    rw [List.cons_append, run_cons (.numDot (cs.reverse ++ [c]))
        (by simp [step, isIdCont, isIdStart, isDigit])]
    rw [List.cons_append, run_cons (.num (d :: 46 :: (cs.reverse ++ [c])))
        (by simp [step, hd'])]
    rw [run_num _ _ h', run_num_end]
    simp
  | @exponent c cs s ds hc h hs h' =>
    show run .start (c :: (cs ++ 101 :: s :: ds ++ [32])) = _
    have hcs : ∀ d ∈ cs, idChar d := fun d hd => by
      have := h d hd
      unfold digit at this
      unfold idChar
      omega
    have hx : (cs.reverse ++ [c]).all (fun d => isDigit d || Nat.beq d 95 || Nat.beq d 46) = true := by
      rw [List.all_eq_true]
      intro d hd
      simp only [List.mem_append, List.mem_reverse, List.mem_singleton] at hd
      have : digit d := by
        rcases hd with hd | rfl
        · exact h d hd
        · exact hc
      simp [(isDigit_iff d).mpr this]
    rw [run_start_digit hc, List.append_assoc, run_num _ _ hcs]
    rw [List.cons_append, run_cons (.num (101 :: (cs.reverse ++ [c])))
        (by simp [step, isIdCont, isIdStart])]
    rw [List.cons_append, run_cons (.num (s :: 101 :: (cs.reverse ++ [c])))
        (by
          have he : expects (101 :: (cs.reverse ++ [c])) = true := by simp only [expects, hx]; simp
          rcases hs with rfl | rfl <;> simp [step, isIdCont, isIdStart, isDigit, he])]
    rw [run_num _ _ h', run_num_end]
    simp
  | @str cs h =>
    show run .start (34 :: (cs ++ [34])) = _
    rw [run_cons (.str []) (by simp [step, Src.start, isSpace, isIdStart, isDigit]), run_str _ _ h]
    simp [run, step]
  | lifetime => decide +kernel
  | doc => decide +kernel
  | @punct c h =>
    have h1 : isSpace c = false := by
      rw [Bool.eq_false_iff, ne_eq, isSpace_iff]; unfold sign at h; omega
    have h2 : isIdStart c = false := by
      rw [Bool.eq_false_iff, ne_eq, isIdStart_iff]; exact fun h' => h.2.2.1 h'.1
    have h3 : isDigit c = false := by
      rw [Bool.eq_false_iff, ne_eq, isDigit_iff]
      intro h'
      refine h.2.2.1 ?_
      unfold digit at h'
      unfold idChar
      omega
    unfold sign at h
    have h4 : Nat.ble c 32 = false ∧ Nat.ble 127 c = false := by
      simp only [Bool.eq_false_iff, ne_eq, Nat.ble_eq]
      omega
    show run .start [c] = _
    have : step .start c = ([.punct c], .start) := by
      simp only [step, Src.start, h1, h2, h3, h4.1, h4.2]
      simp [h.2.2.2.1, h.2.2.2.2.1, h.2.2.2.2.2]
    simp [run, this]

/-- Whatever tokens are written are the ones that are read, in their order. -/
theorem c89_tokens (ts : List LTok) (h : ∀ t ∈ ts, Proper t) : lex (ts.flatMap spell) = some ts := by
  induction ts with
  | nil => rfl
  | cons t ts ih =>
    rw [List.flatMap_cons, lex_append (lex_spell (h t (by simp))), ih fun u hu => h u (by simp [hu])]
    rfl

example : Proper (.num [49, 101, 45, 55]) :=
  .exponent (c := 49) (cs := []) (s := 45) (ds := [55]) (by unfold digit; omega) (by simp) (by simp)
    (by simp [idChar])

private theorem run_blank {cs : List Nat} (h : Blank cs) (rest : List Nat) :
    run .start (cs ++ rest) = run .start rest := by
  induction h with
  | nil => rfl
  | @space c cs h _ ih =>
    have h1 := (isSpace_iff c).mpr h
    rw [List.cons_append, run_cons .start (by simp [step, Src.start, h1]), ih]
  | @comment cs more h hd _ ih =>
    rw [List.append_assoc, List.cons_append, List.cons_append,
      run_cons .slash1 (by simp [step, Src.start, isSpace, isIdStart, isDigit]),
      run_cons .slash2 (by simp [step])]
    cases cs with
    | nil =>
      rw [List.nil_append, List.cons_append, run_cons .start (by simp [step])]
      simpa using ih
    | cons c cs =>
      have hc := h c (by simp)
      have hd := hd c (by simp)
      rw [List.cons_append, run_cons .comment (by simp [step, hc, hd.1, hd.2]),
        List.cons_append, run_comment _ _ fun d hd => h d (by simp [hd])]
      simpa using ih

/-- Comments, blanks and empty lines between items mean nothing. -/
theorem c89_blank {a b cs : List Nat} {l : List Item} (ha : itemsOf a = some l) (h : Blank cs) :
    itemsOf (a ++ cs ++ b) = itemsOf (a ++ b) := by
  simp only [itemsOf, Option.bind_eq_bind, Option.bind_eq_some_iff] at ha
  obtain ⟨x, hx, -⟩ := ha
  have : lex (cs ++ b) = lex b := by simp only [lex, run_blank h]
  simp only [itemsOf]
  rw [List.append_assoc, lex_append hx, lex_append hx, this]

/-- The items of a file are those of its parts, in their order: no item changes what another one
means. -/
theorem c89_parts {a b : List Nat} {l l' : List Item} (ha : itemsOf a = some l) (hb : itemsOf b = some l') :
    itemsOf (a ++ b) = some (l ++ l') := itemsOf_append ha hb

/-- The parts of `packets.rs` can be read. -/
example : (∃ l, itemsOf (codes packetsRs0) = some l ∧ l ≠ []) ∧
    Blank [10, 32, 47, 47, 32, 110, 111, 116, 101, 10] := by
  refine ⟨⟨_, packetsRs0_items, by simp⟩, ?_⟩
  refine .space (by simp) (.space (by simp) ?_)
  exact .comment (cs := [32, 110, 111, 116, 101]) (rest := []) (by decide) (by decide) .nil

/-! ## Words -/

/-- The words that the macros know are read from their spelling, and every other identifier as the
name it is. -/
theorem c89_words : (∀ p ∈ known, text p.1 = p.2.text ∧ word p.1 = p.2) ∧
    (∀ w : Syn.Word, (∃ s, w = .name s) ∨ ∃ p ∈ known, p.2 = w) ∧
    (∀ cs, (∀ p ∈ known, p.1 ≠ cs) → word cs = .name (text cs)) := by
  refine ⟨by decide +kernel, ?_, ?_⟩
  · intro w
    cases w <;> first | exact .inl ⟨_, rfl⟩ | exact .inr (by decide)
  · intro cs h
    have : ∀ l : List (List Nat × Syn.Word), (∀ p ∈ l, p.1 ≠ cs) → find l cs = none := by
      intro l
      induction l with
      | nil => intro _; rfl
      | cons p l ih =>
        intro h
        obtain ⟨k, x⟩ := p
        have hk : (k == cs) = false := by
          have := h (k, x) (by simp)
          simpa using this
        simp only [find, hk]
        exact ih fun q hq => h q (by simp [hq])
    simp only [word, this known h]
    rfl

/-- The keywords, the words that begin items, and the types of configuration values are spelled as in
Rust and in the crate. -/
theorem c89_keywords :
    keywords.map (fun p => (text p.1, p.2)) =
      [("enum", .enum), ("struct", .struct), ("const", .const), ("pub", .pub)] ∧
    cfgTypes.map (fun p => (text p.1, p.2)) =
      [("bool", .bool), ("u8", .u8), ("u16", .u16), ("i16", .i16), ("u32", .u32), ("u64", .u64),
       ("CfgInfMask", .cfgInfMask), ("DataBits", .dataBits), ("Parity", .parity), ("StopBits", .stopBits),
       ("AlignmentToReferenceTime", .alignment), ("TpPulse", .tpPulse), ("TpPulseLength", .tpPulseLength)] ∧
    text [98, 105, 116, 102, 108, 97, 103, 115] = "bitflags" ∧
    text [100, 101, 102, 105, 110, 101, 95, 114, 101, 99, 118, 95, 112, 97, 99, 107, 101, 116, 115] =
      "define_recv_packets" := by
  decide +kernel

/-! ## Numbers -/

private theorem fraction_digits (ds : List Nat) (h : ∀ d ∈ ds, d < 10) (m k : Nat) (rest : List Nat)
    (hr : ∀ c ∈ rest.head?, ¬ digit c ∧ c ≠ 95) :
    fraction m k (ds.map (48 + ·) ++ rest) = (ds.foldl (fun n d => 10 * n + d) m, k + ds.length, rest) := by
  induction ds generalizing m k with
  | nil =>
    cases rest with
    | nil => rfl
    | cons c rest =>
      have := hr c (by simp)
      simp [fraction, this.2, mt (isDigit_iff c).mp this.1]
  | cons d ds ih =>
    have hd := h d (by simp)
    have : isDigit (48 + d) = true := (isDigit_iff _).mpr (by unfold digit; omega)
    simp only [List.map_cons, List.cons_append, fraction, this, if_true]
    rw [ih fun e he => h e (by simp [he])]
    simp only [List.foldl_cons, List.length_cons, Prod.mk.injEq, and_true]
    constructor
    · congr 1; omega
    · omega

private theorem digitsVal_digits (b : Nat) (f : Nat → Nat) (ds : List Nat)
    (h : ∀ d ∈ ds, d < b ∧ digitVal (f d) = some d ∧ f d ≠ 95) (m : Nat) :
    digitsVal b m (ds.map f) = some (ds.foldl (fun n d => b * n + d) m) := by
  induction ds generalizing m with
  | nil => rfl
  | cons d ds ih =>
    have hd := h d (by simp)
    simp only [List.map_cons, digitsVal, hd.2.1]
    have h1 : Nat.beq (f d) 95 = false := by
      rw [Bool.eq_false_iff, ne_eq, Nat.beq_eq]; exact hd.2.2
    have h2 : Nat.blt d b = true := by rw [Nat.blt_eq]; exact hd.1
    simp only [h1, h2, if_true, List.foldl_cons]
    rw [Nat.mul_comm m b]
    exact ih (fun e he => h e (by simp [he])) _

private theorem digitVal_dec {d : Nat} (h : d < 10) : digitVal (48 + d) = some d := by
  have : isDigit (48 + d) = true := (isDigit_iff _).mpr (by unfold digit; omega)
  simp [digitVal, this]

private theorem number_dec (cs : List Nat) (h : ∀ c ∈ cs.tail.head?, c ≠ 120 ∧ c ≠ 98 ∧ c ≠ 111) :
    number cs = match fraction 0 0 cs with
      | (n, _, []) => some (.int (.ofNat n))
      | (n, _, 46 :: ds) =>
        match fraction n 0 ds with
        | (m, k, rest) => number.exponent m k rest
      | (n, _, rest) => number.exponent n 0 rest := by
  unfold number
  split
  · simp at h
  · simp at h
  · simp at h
  · rfl

/-- Decimal numbers. -/
theorem c89_decimal (ds : List Nat) (h : ∀ d ∈ ds, d < 10) :
    number (ds.map (48 + ·)) = some (.int (value 10 ds)) := by
  rw [number_dec]
  · have := fraction_digits ds h 0 0 [] (by simp)
    rw [List.append_nil] at this
    rw [this]
    rfl
  · intro c hc
    rw [← List.map_tail, List.head?_map] at hc
    simp only [Option.mem_def, Option.map_eq_some_iff] at hc
    obtain ⟨d, hd, rfl⟩ := hc
    have := h d (List.mem_of_mem_tail (List.mem_of_mem_head? hd))
    omega

/-- Hexadecimal numbers `0x…`, in small or capital letters. -/
theorem c89_hexadecimal (u : Bool) (ds : List Nat) (h : ∀ d ∈ ds, d < 16) :
    number ([48, 120] ++ ds.map (hexDigit u)) = some (.int (value 16 ds)) := by
  show (digitsVal 16 0 (ds.map (hexDigit u))).map _ = _
  rw [digitsVal_digits 16 (hexDigit u) ds]
  · rfl
  · intro d hd
    have := h d hd
    refine ⟨this, ?_⟩
    have key : ∀ u, ∀ d < 16, digitVal (hexDigit u d) = some d ∧ hexDigit u d ≠ 95 := by decide
    exact key u d this

/-- Numbers with an exponent `…e-…`, as they are used for scales. -/
theorem c89_exponent (ds es : List Nat) (hd : ∀ d ∈ ds, d < 10) (he : ∀ d ∈ es, d < 10) (hne : ds ≠ []) :
    number (ds.map (48 + ·) ++ [101, 45] ++ es.map (48 + ·)) =
      some (.float ((value 10 ds : Rat) / 10 ^ value 10 es)) := by
  rw [number_dec]
  · rw [List.append_assoc, fraction_digits ds hd 0 0 _ (by simp [digit])]
    simp only [List.cons_append, List.nil_append, number.exponent]
    rw [digitsVal_digits 10 (48 + ·) es fun d h => ⟨he d h, digitVal_dec (he d h), by have := he d h; omega⟩]
    simp only [Option.map_some, Nat.zero_add, Rat.mkRat_eq_div, value]
    simp
    rfl
  · intro c hc
    match ds, hne with
    | [d], _ => simp at hc; omega
    | d :: d' :: ds, _ =>
      simp at hc
      have := hd d' (by simp)
      omega

/-- Numbers with a point. -/
theorem c89_point (ds fs : List Nat) (hd : ∀ d ∈ ds, d < 10) (hf : ∀ d ∈ fs, d < 10) (hne : ds ≠ []) :
    number (ds.map (48 + ·) ++ [46] ++ fs.map (48 + ·)) =
      some (.float ((value 10 (ds ++ fs) : Rat) / 10 ^ fs.length)) := by
  rw [number_dec]
  · rw [List.append_assoc, fraction_digits ds hd 0 0 _ (by simp [digit])]
    simp only [List.cons_append, List.nil_append]
    have := fraction_digits fs hf (ds.foldl (fun n d => 10 * n + d) 0) 0 [] (by simp)
    rw [List.append_nil] at this
    rw [this]
    simp only [number.exponent, Nat.zero_add, Rat.mkRat_eq_div, value, List.foldl_append]
    simp
    rfl
  · intro c hc
    match ds, hne with
    | [d], _ => simp at hc; omega
    | d :: d' :: ds, _ =>
      simp at hc
      have := hd d' (by simp)
      omega

example : value 10 [2, 5, 6] = 256 ∧ value 16 [15, 15] = 255 := by decide

end Ublox.Props
