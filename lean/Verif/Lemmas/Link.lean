import Verif.Lemmas.CodegenEnum
import Verif.Lemmas.Types
import Verif.Spec.Link
import Mathlib.Data.List.Nodup

/-!
# Lemmas on linking
-/

namespace Ublox.Rust
open Spec
open Syn (Ty Fn Word)

variable {W E : Type}

/-! ## Names -/

theorem append_cancel {a b c : String} (h : a ++ b = a ++ c) : b = c := by
  have := congrArg String.toList h
  simp only [String.toList_append, List.append_cancel_left_eq] at this
  exact String.toList_inj.mp this

theorem append_cancel_right {a b c : String} (h : a ++ c = b ++ c) : a = b := by
  have := congrArg String.toList h
  simp only [String.toList_append, List.append_cancel_right_eq] at this
  exact String.toList_inj.mp this

/-- Names that end differently. -/
theorem append_ne {a b s t : String} (h : ∀ c ∈ s.toList.getLast?, ∀ d ∈ t.toList.getLast?, c ≠ d)
    (hs : s.toList ≠ []) (ht : t.toList ≠ []) : a ++ s ≠ b ++ t := by
  intro he
  have h1 := congrArg (fun u => u.toList.getLast?) he
  simp only [String.toList_append] at h1
  rw [List.getLast?_append_of_ne_nil _ hs, List.getLast?_append_of_ne_nil _ ht] at h1
  obtain ⟨c, hc⟩ := Option.isSome_iff_exists.mp (List.getLast?_isSome.mpr hs)
  exact h c hc c (h1 ▸ hc) rfl

/-- A name with a colon in it. -/
theorem colon_ne {a b s : String} (h : ':' ∉ s.toList) : a ++ "::" ++ b ≠ s := by
  intro he
  apply h
  rw [← he]
  simp only [String.toList_append, List.mem_append]
  left; right
  decide

/-! ## Enumerations -/

variable (base : Externs W E)

theorem enumX_links {e : EnumDesc} {code : EnumCode} (hn : (e.allVariants.map (·.1)).Nodup)
    (hc : generateEnumCode e = .ok code) : EnumLinks (enumX base code) code := by
  have h1 : code.name = e.name ∧ code.variants = variantsCode e.allVariants := by
    rw [generateEnumCode_eq] at hc
    split at hc
    · cases hc
    · split at hc
      · cases hc
      · cases hc; exact ⟨rfl, rfl⟩
  refine ⟨?_, rfl, rfl⟩
  intro v hv
  have h2 : (code.variants.map (·.1)).Nodup := by
    rw [h1.2, variantsCode, List.map_map]
    exact hn
  have h3 : (code.variants.find? fun w => code.name ++ "::" ++ w.1 = code.name ++ "::" ++ v.1) = some v := by
    clear h1 hc
    generalize code.variants = vs at *
    induction vs with
    | nil => cases hv
    | cons a vs ih =>
      rw [List.find?_cons]
      simp only [List.map_cons, List.nodup_cons] at h2
      cases hv with
      | head => simp
      | tail _ hv =>
        have : a.1 ≠ v.1 := fun h => h2.1 (h ▸ List.mem_map_of_mem hv)
        have : code.name ++ "::" ++ a.1 ≠ code.name ++ "::" ++ v.1 := fun h => this (append_cancel h)
        simp only [this, decide_false]
        exact ih hv h2.2
  unfold enumX
  dsimp only
  rw [if_neg (colon_ne (by decide)), if_neg (colon_ne (by decide)), h3]

theorem variant_of_code {x : Externs W E} {e : EnumDesc} {code : EnumCode} (hc : code.name = e.name)
    (hv : code.variants = variantsCode e.allVariants) (hx : EnumLinks x code) :
    ∀ v ∈ e.allVariants, x.const (e.name ++ "::" ++ v.1) = .ok (.val (.enum v)) := by
  intro v hm
  have h := hx.variant (v.1, v.2.toNat) (by rw [hv]; exact List.mem_map_of_mem hm)
  simp only [hc, UInt8.ofNat_toNat] at h
  exact h

/-- The functions of an accepted enumeration. -/
theorem enumFn_eq {e : EnumDesc} {code : EnumCode} (hc : generateEnumCode e = .ok code)
    (hn : (e.allVariants.map (·.1)).Nodup) :
    (∀ b, enumFn base e .from_ (.byte b) = (variantV <$> if e.fromFn = some .from then e.from b
      else .error .illTyped)) ∧
    (∀ b, enumFn base e .fromUnchecked (.byte b) = (variantV <$> if e.fromFn = some .fromUnchecked then
      e.fromUnchecked b else .error .illTyped)) ∧
    (e.fromFn = some .fromUnchecked → ∀ b, enumFn base e .isValid (.byte b) = .ok (.bool (e.isValid b))) ∧
    (∀ v, enumFn base e .intoRaw (variantV v) = if e.intoRaw then .ok (.byte v.2) else .error .illTyped) := by
  have hx := enumX_links base hn hc
  have hg := generateEnumCode_eq e
  rw [hc] at hg
  split at hg
  · cases hg
  split at hg
  · cases hg
  have hcode := Except.ok.inj hg
  have hvar := variant_of_code (by rw [hcode]) (by rw [hcode]) hx
  have h1 : code.from_ = _ := congrArg EnumCode.from_ hcode
  have h2 : code.fromUnchecked = _ := congrArg EnumCode.fromUnchecked hcode
  have h3 : code.isValid = _ := congrArg EnumCode.isValid hcode
  have h4 : code.intoRaw = _ := congrArg EnumCode.intoRaw hcode
  refine ⟨?_, ?_, ?_, ?_⟩
  · intro b
    simp only [enumFn, hc]
    rw [h1]
    dsimp only
    split
    · exact enumFrom_call _ b hvar
    · rfl
  · intro b
    simp only [enumFn, hc]
    rw [h2]
    dsimp only
    split
    · exact enumFromUnchecked_call _ b hvar
    · rfl
  · intro hu b
    simp only [enumFn, hc]
    rw [h3]
    dsimp only
    rw [if_pos hu]
    exact enumIsValid_call _ b hx.true_ hx.false_
  · intro v
    simp only [enumFn, hc, variantV]
    rw [h4]
    dsimp only
    split
    · exact enumIntoRaw_call _ v
    · rfl

/-! ## Flags -/

theorem constValues_eq {x : Externs W E} {nbits : Nat} {items : List (String × Expr)} {vals : List Nat}
    (h : FlagValues x nbits items vals) : constValues x nbits items = .ok vals := by
  unfold FlagValues at h
  induction h with
  | nil => rfl
  | cons h _ ih =>
    obtain ⟨r, h1, h2⟩ := h
    simp only [constValues, h1, okBind', rawV, h2, ih]
    rfl

theorem flagValues_unique {x : Externs W E} {nbits : Nat} {items : List (String × Expr)} {u v : List Nat}
    (hu : FlagValues x nbits items u) (hv : FlagValues x nbits items v) : u = v :=
  Except.ok.inj ((constValues_eq hu).symm.trans (constValues_eq hv))

theorem flagsX_links {d : FlagsDesc} {code : FlagsCode} (hn : d.nbits = 8 ∨ d.nbits = 16 ∨ d.nbits = 32)
    (hi : code.items = itemsCode d) :
    FlagsLinks (flagsX base d.nbits (d.items.map (·.2))) d.nbits code := by
  refine ⟨?_, ?_⟩
  · intro vals hv r n hr
    rw [hi] at hv
    rw [flagValues_unique hv (itemsCode_values _ d hn)]
    simp only [flagsX, rawV, if_true, hr]
  · intro n
    simp only [flagsX, flagsV, if_true]

theorem flagsFn_eq {d : FlagsDesc} {code : FlagsCode} (hn : d.nbits = 8 ∨ d.nbits = 16 ∨ d.nbits = 32)
    (hc : generateFlagsCode d (if d.from_ then some .from else none) (some .reserved) = .ok code) :
    (∀ r : RawVal, flagsFn base d .from_ (rawV r) = match r.unsigned? d.nbits with
      | some n => if d.from_ then .ok (flagsV (d.fromBitsTruncate n)) else .error .illTyped
      | none => .error .illTyped) ∧
    (∀ n, flagsFn base d .intoRaw (flagsV n) =
      if d.intoRaw then rawV <$> RawVal.ofUnsigned d.nbits n else .error .illTyped) := by
  have hg := generateFlagsCode_eq d (if d.from_ then some .from else none) (some .reserved)
  rw [hc, if_neg (by simp)] at hg
  by_cases ha : d.accepted = false
  · rw [if_pos ha] at hg; cases hg
  rw [if_neg ha, if_neg (by cases d.from_ <;> simp)] at hg
  have hcode := Except.ok.inj hg
  have h1 : code.from_ = _ := congrArg FlagsCode.from_ hcode
  have h4 : code.intoRaw = _ := congrArg FlagsCode.intoRaw hcode
  have hi : code.items = itemsCode d := congrArg FlagsCode.items hcode
  have hx := flagsX_links base hn hi
  have hvals : constValues base d.nbits code.items = .ok (d.items.map (·.2)) := by
    rw [hi]; exact constValues_eq (itemsCode_values base d hn)
  have hv : FlagValues (flagsX base d.nbits (d.items.map (·.2))) d.nbits code.items (d.items.map (·.2)) := by
    rw [hi]; exact itemsCode_values _ d hn
  refine ⟨?_, ?_⟩
  · intro r
    simp only [flagsFn, hc, hvals, okBind', rawV]
    cases hr : r.unsigned? d.nbits with
    | none => simp
    | some n =>
      simp only [Option.isSome_some, if_true]
      rw [h1]
      dsimp only
      cases d.from_ with
      | false => rfl
      | true =>
        simp only [if_true]
        refine call_x _ rfl rfl ?_
        rw [eval_call (rs := [.ok (rawV r)]) _ _ (.cons (eval_var _ rfl) .nil)]
        have := hx.truncate _ hv r n hr
        have h5 : (seqR [Except.ok (rawV r)] >>= callV (flagsX base d.nbits (d.items.map (·.2)))
            (.user "Self::from_bits_truncate")) = (flagsX base d.nbits (d.items.map (·.2))).call
            "Self::from_bits_truncate" [rawV r] := by
          simp only [seqR, okBind', pure, Except.pure, callV]
        rw [h5, this]
        rfl
  · intro n
    simp only [flagsFn, hc, hvals, okBind', flagsV]
    rw [h4]
    dsimp only
    split
    · refine call_self _ rfl rfl ?_
      refine eval_meth _ (eval_var _ rfl) ?_ ?_
      · have := hx.bits n
        simp only [methV]
        rw [show (V.val (.flags n) : V W E) = flagsV n from rfl, this]
        cases RawVal.ofUnsigned d.nbits n <;> rfl
      · intro y hy; cases hy; rfl
    · rfl

/-! ## The functions that declarations name -/

theorem find_of_nodup {α β : Type} [DecidableEq β] {l : List α} {f : α → β} {a : α} (ha : a ∈ l)
    (hn : (l.map f).Nodup) : (l.find? fun c => f c = f a) = some a := by
  induction l with
  | nil => cases ha
  | cons b l ih =>
    simp only [List.map_cons, List.nodup_cons] at hn
    rw [List.find?_cons]
    cases ha with
    | head => simp
    | tail _ ha =>
      have : f b ≠ f a := fun h => hn.1 (h ▸ List.mem_map_of_mem ha)
      simp only [this, decide_false]
      exact ih ha hn.2

theorem find_of_unique {α : Type} {l : List α} {p : α → Bool} {a : α} (ha : a ∈ l) (hp : p a = true)
    (hu : ∀ b, p b = true → b = a) : l.find? p = some a := by
  cases h : l.find? p with
  | none => exact absurd hp (by simpa using List.find?_eq_none.mp h a ha)
  | some b => rw [hu b (List.find?_some h)]

/-- The conversions that are written by hand. -/
def handConvs : List Conv :=
  [.f32, .f64, .fixStatusInfo, .navSatSvFlags, .timTpFlags, .timTpRefInfo, .timTm2Flags, .uartMode,
   .itfmConfig, .itfmConfig2, .resetMode, .alignment, .infStr, .cstr, .calibTag, .iter .navSat,
   .iter .monVerExt, .iter .esfMeas, .iter .esfRaw, .iter .rxmRawx, .iter .dwrd]

theorem hand_of_from {c : Conv} {p : List Word} (h : convFrom c = some p) : c ∈ handConvs := by
  cases c <;> first | (cases h; done) | decide | skip
  rename_i k
  cases k <;> decide

theorem hand_of_isValid {c : Conv} {p : List Word} (h : convIsValid c = some p) : c ∈ handConvs := by
  cases c <;> first | (cases h; done) | decide | skip
  rename_i k
  cases k <;> decide

theorem convFrom_inj {c c' : Conv} {p : List Word} (h : convFrom c = some p) (h' : convFrom c' = some p) :
    c' = c := by
  have key : ∀ c ∈ handConvs, ∀ c' ∈ handConvs, convFrom c = convFrom c' → (convFrom c).isSome → c' = c := by
    decide +kernel
  exact key c (hand_of_from h) c' (hand_of_from h') (h.trans h'.symm) (by rw [h]; rfl)

theorem convIsValid_inj {c c' : Conv} {p : List Word} (h : convIsValid c = some p)
    (h' : convIsValid c' = some p) : c' = c := by
  have key : ∀ c ∈ handConvs, ∀ c' ∈ handConvs, convIsValid c = convIsValid c' → (convIsValid c).isSome →
      c' = c := by decide +kernel
  exact key c (hand_of_isValid h) c' (hand_of_isValid h') (h.trans h'.symm) (by rw [h]; rfl)

theorem convFrom_ne {c c' : Conv} {p : List Word} (h : convIsValid c = some p) : convFrom c' ≠ some p := by
  have key : ∀ c ∈ handConvs, ∀ c' ∈ handConvs, (convIsValid c).isSome → convFrom c' ≠ convIsValid c := by
    decide +kernel
  intro h'
  exact key c (hand_of_isValid h) c' (hand_of_from h') (by rw [h]; rfl) (h'.trans h.symm)

theorem find_of_unique' {α : Type} {l : List α} {p : α → Bool} {a : α} (ha : a ∈ l) (hp : p a = true)
    (hu : ∀ b ∈ l, p b = true → b = a) : l.find? p = some a := by
  cases h : l.find? p with
  | none => exact absurd hp (by simpa using List.find?_eq_none.mp h a ha)
  | some b => rw [hu b (List.mem_of_find?_eq_some h) (List.find?_some h)]

theorem convert_custom {c : Conv} {p : List Word} (h : convFrom c = some p) (b : Bool) (r : RawVal) :
    c.convert b r = c.convert false r := by
  cases c <;> first | (cases h; done) | (cases r <;> rfl)

variable {cs : List Conv}

theorem linkFn_method {c : Conv} (hc : c ∈ cs) (hp : ProgramOk cs) (name : Word) (v : V W E) :
    linkFn base cs (.method (convTy c) name) v =
      match c with
      | .enum e => enumFn base e name v
      | .flags d => flagsFn base d name v
      | c => handFn c name v := by
  simp only [linkFn]
  rw [find_of_nodup hc hp.types]
  cases c <;> rfl

theorem linkFn_from {c : Conv} {p : List Word} (hc : c ∈ cs) (h : convFrom c = some p) (v : V W E) :
    linkFn base cs (.custom p) v = handFn c .from_ v := by
  simp only [linkFn]
  rw [find_of_unique hc (by simp [h]) fun b hb => convFrom_inj h (by simpa using hb)]

theorem linkFn_isValid {c : Conv} {p : List Word} (hc : c ∈ cs) (h : convIsValid c = some p) (v : V W E) :
    linkFn base cs (.custom p) v = handFn c .isValid v := by
  simp only [linkFn]
  have h1 : (cs.find? fun c => decide (convFrom c = some p)) = none := by
    rw [List.find?_eq_none]
    intro c' _ h'
    exact convFrom_ne h (by simpa using h')
  rw [h1, find_of_unique hc (by simp [h]) fun b hb => convIsValid_inj h (by simpa using hb)]

theorem link_fromFn (hp : ProgramOk cs) {f : FieldDesc} {c : Conv} (hc : c ∈ cs) (raw : Ty) (r : RawVal) :
    linkFn base cs (convDesc f raw c).fromFn (rawV r) = valV <$> c.convert f.mayFail r := by
  simp only [convDesc]
  cases hf : convFrom c with
  | some p =>
    dsimp only
    rw [linkFn_from base hc hf, convert_custom hf]
    rfl
  | none =>
    dsimp only
    rw [linkFn_method base hc hp]
    cases c <;> first | (cases hf; done) | skip
    case enum e =>
      obtain ⟨⟨code, hcode⟩, hn⟩ := hp.enums e hc
      obtain ⟨h1, h2, -, -⟩ := enumFn_eq base hcode hn
      cases hm : f.mayFail with
      | true =>
        simp only [if_true]
        cases r
        case u8 b =>
          show enumFn base e .fromUnchecked (.byte b) = _
          rw [h2]
          simp only [Conv.convert, if_true]
          split
          · cases e.fromUnchecked b <;> rfl
          · rfl
        all_goals simp only [enumFn, hcode, rawV]; rfl
      | false =>
        simp only [Bool.false_eq_true, if_false]
        cases r
        case u8 b =>
          show enumFn base e .from_ (.byte b) = _
          rw [h1]
          simp only [Conv.convert, Bool.false_eq_true, if_false]
          split
          · cases e.from b <;> rfl
          · rfl
        all_goals simp only [enumFn, hcode, rawV]; rfl
    case flags d =>
      obtain ⟨hn, code, hcode⟩ := hp.flags d hc
      obtain ⟨h1, -⟩ := flagsFn_eq base hn hcode
      have hvals : ∃ vals, constValues base d.nbits code.items = .ok vals := by
        have hg := generateFlagsCode_eq d (if d.from_ then some .from else none) (some .reserved)
        rw [hcode, if_neg (by simp)] at hg
        by_cases ha : d.accepted = false
        · rw [if_pos ha] at hg; cases hg
        rw [if_neg ha, if_neg (by cases d.from_ <;> simp)] at hg
        have hi : code.items = itemsCode d := congrArg FlagsCode.items (Except.ok.inj hg)
        exact ⟨_, by rw [hi]; exact constValues_eq (itemsCode_values base d hn)⟩
      obtain ⟨vals, hvals⟩ := hvals
      cases hm : f.mayFail with
      | true =>
        simp only [if_true, flagsFn, hcode, hvals, okBind', Conv.convert, Bool.not_true, Bool.and_false,
          Bool.false_eq_true, if_false]
        cases r.unsigned? d.nbits <;> rfl
      | false =>
        simp only [Bool.false_eq_true, if_false, h1, Conv.convert, Bool.not_false, Bool.and_true]
        cases r.unsigned? d.nbits with
        | none => rfl
        | some n => cases d.from_ <;> rfl
    all_goals cases hm : f.mayFail <;> rfl

theorem link_isValidFn (hp : ProgramOk cs) {f : FieldDesc} {c : Conv} (hc : c ∈ cs) (raw : Ty)
    (hm : ∀ e, c = .enum e → e.fromFn = some .fromUnchecked) (r : RawVal) :
    linkFn base cs (convDesc f raw c).isValidFn (rawV r) = V.bool <$> c.isValid r := by
  simp only [convDesc]
  cases hf : convIsValid c with
  | some p =>
    dsimp only
    rw [linkFn_isValid base hc hf]
    rfl
  | none =>
    dsimp only
    rw [linkFn_method base hc hp]
    cases c <;> first | (cases hf; done) | skip
    case enum e =>
      obtain ⟨⟨code, hcode⟩, hn⟩ := hp.enums e hc
      obtain ⟨-, -, h3, -⟩ := enumFn_eq base hcode hn
      cases r
      case u8 b => exact h3 (hm e rfl) b
      all_goals simp only [enumFn, hcode, rawV]; rfl
    case flags d =>
      obtain ⟨hn, code, hcode⟩ := hp.flags d hc
      have hvals : ∃ vals, constValues base d.nbits code.items = .ok vals := by
        have hg := generateFlagsCode_eq d (if d.from_ then some .from else none) (some .reserved)
        rw [hcode, if_neg (by simp)] at hg
        by_cases ha : d.accepted = false
        · rw [if_pos ha] at hg; cases hg
        rw [if_neg ha, if_neg (by cases d.from_ <;> simp)] at hg
        have hi : code.items = itemsCode d := congrArg FlagsCode.items (Except.ok.inj hg)
        exact ⟨_, by rw [hi]; exact constValues_eq (itemsCode_values base d hn)⟩
      obtain ⟨vals, hvals⟩ := hvals
      simp only [flagsFn, hcode, hvals, okBind', Conv.isValid]
      rfl
    all_goals cases r <;> rfl

theorem intTyOf_raw (s : ScaleBack) (m : Bool) (ty : RawTy) (y : Fl) :
    s.asRaw (intTyOf (rawTy m ty)) y = s.asRaw ty y := by
  cases ty <;> first | rfl | (cases m <;> rfl)

theorem link_intoFn (hp : ProgramOk cs) {f : FieldDesc} {c : Conv} (hf : f.map = some c) (hc : c ∈ cs)
    {v : Val} (ht : HasType f v) :
    linkFn base cs (convDesc f (rawTy true f.ty) c).intoFn (valV v) = rawV <$> c.intoRaw f.scale f.ty v := by
  have key : ∀ s, (convDesc f (rawTy true f.ty) c).intoFn = .method (convTy c) .intoRaw → s = f.scale →
      ((∀ q, s = some q → c ≠ .f32 ∧ c ≠ .f64)) →
      linkFn base cs (convDesc f (rawTy true f.ty) c).intoFn (valV v) =
        rawV <$> c.intoRaw f.scale f.ty v := by
    intro s hs hsc hq
    rw [hs, linkFn_method base hc hp]
    cases c
    case enum e =>
      obtain ⟨⟨code, hcode⟩, hn⟩ := hp.enums e hc
      obtain ⟨-, -, -, h4⟩ := enumFn_eq base hcode hn
      unfold HasType at ht
      rw [hf] at ht
      cases v <;> try (cases ht; done)
      case enum x =>
        show enumFn base e .intoRaw (variantV x) = _
        rw [h4]
        have hx : e.allVariants.contains x = true := List.contains_iff_mem.mpr ht
        simp only [Conv.intoRaw, hx, Bool.and_true]
        split <;> rfl
    case flags d =>
      obtain ⟨hn, code, hcode⟩ := hp.flags d hc
      obtain ⟨-, h2⟩ := flagsFn_eq base hn hcode
      unfold HasType at ht
      rw [hf] at ht
      cases v <;> try (cases ht; done)
      case flags b =>
        show flagsFn base d .intoRaw (flagsV b) = _
        rw [h2]
        have hx : d.fromBitsTruncate b = b := FlagsDesc.fromBitsTruncate_eq d ht
        simp only [Conv.intoRaw, hx, beq_self_eq_true, Bool.and_true]
        split <;> rfl
    case f32 =>
      cases hsc' : f.scale with
      | some q => rw [hsc'] at hsc; exact absurd rfl (hq q hsc).1
      | none => cases v <;> rfl
    case f64 =>
      cases hsc' : f.scale with
      | some q => rw [hsc'] at hsc; exact absurd rfl (hq q hsc).2
      | none => cases v <;> rfl
    all_goals cases v <;> rfl
  by_cases h32 : c = .f32
  · subst h32
    cases hs : f.scale with
    | none =>
      rw [← hs]
      exact key f.scale (by simp only [convDesc, hs]) rfl (by rw [hs]; rintro q ⟨⟩)
    | some q =>
      unfold HasType at ht
      rw [hf] at ht
      cases v <;> try (cases ht; done)
      case f32 y =>
        simp only [convDesc, hs, linkFn, valV, convTy, if_true, intTyOf_raw, Conv.intoRaw]
  · by_cases h64 : c = .f64
    · subst h64
      cases hs : f.scale with
      | none =>
        rw [← hs]
        exact key f.scale (by simp only [convDesc, hs]) rfl (by rw [hs]; rintro q ⟨⟩)
      | some q =>
        unfold HasType at ht
        rw [hf] at ht
        cases v <;> try (cases ht; done)
        case f64 y =>
          simp only [convDesc, hs, linkFn, valV, convTy, if_true, intTyOf_raw, Conv.intoRaw]
    · refine key f.scale ?_ rfl fun _ _ => ⟨h32, h64⟩
      simp only [convDesc]
      all_goals cases c <;> first | rfl | exact absurd rfl h32 | exact absurd rfl h64

/-! ## Packets -/

theorem packX_recv (hp : ProgramOk cs) {d : Ublox.PackDesc} (hd : PacketIn cs d) :
    RecvLinks (packX base cs d) d := by
  refine ⟨?_, ?_, ?_⟩
  · intro f hf c hc r
    exact link_fromFn base hp (hd.convs f hf c hc) _ r
  · intro f hf c hc hm r
    refine link_isValidFn base hp (hd.convs f hf c hc) _ ?_ r
    rintro e rfl
    exact hd.mayFail f hf e hc hm
  · intro f hf s hs payload
    have h1 : ([SizeFn.dataLen, .calibTagLen].find? fun t => pathText (sizeFnName t) = pathText (sizeFnName s)) =
        some s := by cases s <;> decide
    simp only [packX, refV, if_true, h1]

theorem packetConst_find {ds : List Ublox.PackDesc} (hn : (ds.map (·.name)).Nodup) {d : Ublox.PackDesc}
    (hd : d ∈ ds) {c : ConstDecl} (hc : c ∈ generateTypes (packetCode d)) :
    packetConst base ds (d.name ++ "::" ++ c.name) = c.eval base := by
  have names : ∀ d : Ublox.PackDesc, (generateTypes (packetCode d)).map ConstDecl.name =
      ["CLASS", "ID", "FIXED_PAYLOAD_LEN", "MAX_PAYLOAD_LEN"] := fun d => rfl
  have ends : ∀ s ∈ ["CLASS", "ID", "FIXED_PAYLOAD_LEN", "MAX_PAYLOAD_LEN"],
      ∀ t ∈ ["CLASS", "ID", "FIXED_PAYLOAD_LEN", "MAX_PAYLOAD_LEN"], s ≠ t →
      ∀ a b : String, a ++ "::" ++ s ≠ b ++ "::" ++ t := by
    intro s hs t ht hst a b h
    have h1 := congrArg (fun u => u.toList.reverse.take 13) h
    simp only [String.toList_append, List.reverse_append] at h1
    simp only [List.mem_cons, List.not_mem_nil, or_false] at hs ht
    rcases hs with rfl | rfl | rfl | rfl <;> rcases ht with rfl | rfl | rfl | rfl <;>
      first | exact hst rfl | (revert h1; simp; done)
  unfold packetConst
  have hfind : ((ds.flatMap fun d => (generateTypes (packetCode d)).map fun c => (d, c)).find? fun p =>
      p.1.name ++ "::" ++ p.2.name = d.name ++ "::" ++ c.name) = some (d, c) := by
    apply find_of_unique' (a := (d, c))
    · exact List.mem_flatMap.mpr ⟨d, hd, List.mem_map_of_mem hc⟩
    · simp
    · rintro ⟨d', c'⟩ hmem hp
      obtain ⟨d'', hd', hm⟩ := List.mem_flatMap.mp hmem
      obtain ⟨c'', hc', he⟩ := List.mem_map.mp hm
      cases he
      simp only [decide_eq_true_eq] at hp
      have hcn : c'.name = c.name := by
        by_contra hne
        refine ends _ ?_ _ ?_ hne _ _ hp
        · rw [← names d']; exact List.mem_map_of_mem hc'
        · rw [← names d]; exact List.mem_map_of_mem hc
      rw [hcn] at hp
      have hdn : d'.name = d.name := append_cancel_right (append_cancel_right hp)
      have hdd : d' = d := List.inj_on_of_nodup_map hn hd' hd hdn
      subst hdd
      have hnd : ((generateTypes (packetCode d')).map ConstDecl.name).Nodup := by
        rw [names]; decide
      rw [List.inj_on_of_nodup_map hnd hc' hc hcn]
  rw [hfind]

theorem packX_send (hp : ProgramOk cs) {d : Ublox.PackDesc} (hd : PacketIn cs d)
    (hl : ∀ size, d.packetPayloadSize = some size → size < 65536) : SendLinks (packX base cs d) d := by
  have hconst : ∀ c ∈ generateTypes (packetCode d),
      (packX base cs d).const (d.name ++ "::" ++ c.name) = c.eval base := by
    intro c hc
    have h1 : d.name ++ "::" ++ c.name ≠ "SYNC_CHAR_1" := colon_ne (by decide)
    have h2 : d.name ++ "::" ++ c.name ≠ "SYNC_CHAR_2" := colon_ne (by decide)
    have h3 : d.name ++ "::" ++ c.name ≠ "Self::PACKET_LEN" := by
      have : c.name ∈ (generateTypes (packetCode d)).map ConstDecl.name := List.mem_map_of_mem hc
      have h4 : (generateTypes (packetCode d)).map ConstDecl.name =
        ["CLASS", "ID", "FIXED_PAYLOAD_LEN", "MAX_PAYLOAD_LEN"] := rfl
      rw [h4] at this
      intro h
      have h5 := congrArg (fun u => u.toList.reverse.take 13) h
      simp only [String.toList_append, List.reverse_append] at h5
      simp only [List.mem_cons, List.not_mem_nil, or_false] at this
      rcases this with this | this | this | this <;> rw [this] at h5 <;> revert h5 <;> simp
    show (if _ then _ else if _ then _ else if _ then _ else packetConst base [d] _) = _
    rw [if_neg h1, if_neg h2, if_neg h3]
    exact packetConst_find base (ds := [d]) (List.nodup_singleton _) (List.mem_singleton.mpr rfl) hc
  refine ⟨?_, rfl, rfl, ?_, ?_, ?_, ?_⟩
  · intro f hf c hc v hv
    exact link_intoFn base hp hc (hd.convs f hf c hc) hv
  · have h := hconst _ List.mem_cons_self
    rw [String.append_assoc] at h
    refine h.trans ?_
    show Except.ok (V.byte (UInt8.ofNat d.cls.toNat)) = _
    rw [UInt8.ofNat_toNat]
  · have h := hconst _ (List.mem_cons_of_mem _ List.mem_cons_self)
    rw [String.append_assoc] at h
    refine h.trans ?_
    show Except.ok (V.byte (UInt8.ofNat d.id.toNat)) = _
    rw [UInt8.ofNat_toNat]
  · intro size hs
    obtain ⟨s, hs, -, -, -, hb⟩ := send_fixed hs (hl size hs)
    obtain ⟨_, _, _, _, _⟩ := s
    simp only at hb
    subst hb
    simp only [packX, packetLenConst, hs]
    rfl
  · intro c out
    rfl

end Ublox.Rust
