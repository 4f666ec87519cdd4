import Verif.Lemmas.MethNew
import Verif.Props.Generators

/-!
# C97: the methods in the text of `types.rs` do what the model says

`Meth.fnsOf` finds the functions in the text of `ublox_derive/src/types.rs` and of `ublox_derive/src/lib.rs`,
`Meth.run` executes one of them, for a machine whose largest `usize` is `M`.
-/

set_option autoImplicit false

namespace Ublox.Props

open Meth (V Fn fnsOf run packV fieldV mapV mapDescV optV)
open Spec (knownSize SizeIs SameValue)
open Syn (PackField PackFieldMap Ty)

/-- The functions in the text of `types.rs` and of `lib.rs` -/
def IsTypes (fs : List Fn) : Prop :=
  ∃ a b, fnsOf (Src.codes Gen.Meth.typesRs) = some a ∧ fnsOf (Src.codes Gen.Meth.libRs) = some b ∧ fs = a ++ b

theorem isTypes_iff {fs : List Fn} : IsTypes fs ↔ fs = Meth.allFns := by
  constructor
  · rintro ⟨a, b, ha, hb, rfl⟩
    rw [Gen.Meth.typesRs_fnsOf, Option.some.injEq] at ha
    rw [Gen.Meth.libRs_fnsOf, Option.some.injEq] at hb
    rw [← ha, ← hb]
    rfl
  · rintro rfl
    exact ⟨_, _, Gen.Meth.typesRs_fnsOf, Gen.Meth.libRs_fnsOf, rfl⟩

/-- **C97**: the text can be read. -/
theorem c97_readable : ∃ fs, IsTypes fs := ⟨_, isTypes_iff.mpr rfl⟩

theorem sizeIs_fieldsSize (fs : List PackField) : SizeIs fs (Syn.fieldsSize fs) := by
  induction fs with
  | nil => simp [Syn.fieldsSize, SizeIs, knownSize]
  | cons f fs ih =>
    rw [Syn.fieldsSize]
    cases hs : f.sizeBytes with
    | none => exact ⟨f, by simp, hs⟩
    | some n =>
      cases hf : Syn.fieldsSize fs with
      | none =>
        rw [hf] at ih
        obtain ⟨g, hg, h⟩ := ih
        exact ⟨g, by simp [hg], h⟩
      | some m =>
        rw [hf] at ih
        obtain ⟨h, rfl⟩ := ih
        refine ⟨?_, ?_⟩
        · intro g hg
          rcases List.mem_cons.mp hg with rfl | hg
          · simp [hs]
          · exact h g hg
        · simp [knownSize, hs]

theorem sizeIs_unique {fs : List PackField} {a b : Option Nat} (ha : SizeIs fs a) (hb : SizeIs fs b) : a = b := by
  cases a <;> cases b
  · rfl
  · obtain ⟨f, hf, h⟩ := ha
    exact absurd h (hb.1 f hf)
  · obtain ⟨f, hf, h⟩ := hb
    exact absurd h (ha.1 f hf)
  · rw [ha.2, hb.2]

section

variable {fs : List Fn} (hfs : IsTypes fs) (M : Nat)

include hfs

/-- **C97**: `PackFieldMapDesc::new` completes what is declared for a field as the model does. -/
theorem c97_new (x : PackFieldMap) (raw : Ty) :
    run M fs 4 i!"PackFieldMapDesc" i!"new" [mapV x, .ty raw] = .ok (mapDescV (Syn.PackFieldMapDesc.new x raw)) := by
  rw [isTypes_iff] at hfs
  subst hfs
  exact Meth.run_new M 3 x raw

/-- **C97**: what the methods of a field return -/
theorem c97_field (docs : PackField → List Nat) (f : PackField) :
    run M fs 4 i!"PackField" i!"size_fn" [fieldV docs f] = .ok (optV (fun p => .toks (Quote.wordsToks p)) f.sizeFn) ∧
    run M fs 4 i!"PackField" i!"is_optional" [fieldV docs f] = .ok (.bool f.isOptional) ∧
    run M fs 4 i!"PackField" i!"has_intermediate_type" [fieldV docs f] = .ok (.bool f.map.mapType.isSome) ∧
    run M fs 4 i!"PackField" i!"intermediate_type" [fieldV docs f] = .ok (.ty f.intermediateType) ∧
    run M fs 4 i!"PackField" i!"intermediate_field_name" [fieldV docs f] =
      .ok (.ident (Src.codes f.intermediateFieldName)) ∧
    run M fs 4 i!"PackField" i!"is_field_raw_ty_byte_array" [fieldV docs f] = .ok (.bool f.isFieldRawTyByteArray) := by
  rw [isTypes_iff] at hfs
  subst hfs
  exact ⟨Meth.run_size_fn M 3 docs f, Meth.run_is_optional M 1 docs f, Meth.run_has_intermediate_type M 3 docs f,
    Meth.run_intermediate_type M 3 docs f, Meth.run_intermediate_field_name M 3 docs f, Meth.run_byte_array M 3 docs f⟩

/-- **C97**: `PayloadLen::fixed` -/
theorem c97_fixed (l : PayloadLen) :
    run M fs 4 i!"PayloadLen" i!"fixed" [.payloadLen l] = .ok (optV .num (Syn.payloadFixed l)) := by
  rw [isTypes_iff] at hfs
  subst hfs
  exact Meth.run_fixed M 3 l

/-- **C97**: if the sizes of the fields fit into a `usize`, the three sizes of a packet are the sums of the sizes
of all fields, of all but the last one, and of those without a function for their size; there is none if one of these
fields has no size. -/
theorem c97_sizes (doc : List Nat) (docs : PackField → List Nat) (d : Syn.PackDesc) (h : knownSize d.fields ≤ M) :
    (∃ n, SizeIs d.fields n ∧ n = d.packetPayloadSize ∧
      run M fs 4 i!"PackDesc" i!"packet_payload_size" [packV doc docs d] = .ok (optV .num n)) ∧
    (∃ n, SizeIs d.fields.dropLast n ∧ n = d.packetPayloadSizeExceptLastField ∧
      run M fs 4 i!"PackDesc" i!"packet_payload_size_except_last_field" [packV doc docs d] = .ok (optV .num n)) ∧
    (∃ n, SizeIs (d.fields.filter fun f => f.sizeFn.isNone) n ∧ n = d.packetPayloadSizeExceptSizeFn ∧
      run M fs 4 i!"PackDesc" i!"packet_payload_size_except_size_fn" [packV doc docs d] = .ok (optV .num n)) := by
  rw [isTypes_iff] at hfs
  subst hfs
  have sub {l : List PackField} (hl : l.Sublist d.fields) : knownSize l ≤ M :=
    Nat.le_trans (List.Sublist.sum_le_sum (hl.map _) (by simp)) h
  have rev : d.fields.reverse.drop 1 = d.fields.dropLast.reverse := by simp [List.drop_one]
  have ks : knownSize (d.fields.reverse.drop 1) = knownSize d.fields.dropLast := by
    rw [rev, knownSize, knownSize, List.map_reverse, List.sum_reverse]
  refine ⟨⟨_, sizeIs_fieldsSize _, rfl, ?_⟩, ⟨Syn.fieldsSize (d.fields.reverse.drop 1), ?_, rfl, ?_⟩,
    ⟨_, sizeIs_fieldsSize _, rfl, ?_⟩⟩
  · rw [Meth.run_calls_fields_size M 2 doc docs d _ _ (.inl ⟨rfl, rfl⟩), Meth.run_fields_size M 2 docs _ h]
  · have := sizeIs_fieldsSize (d.fields.reverse.drop 1)
    cases hn : Syn.fieldsSize (d.fields.reverse.drop 1) with
    | none =>
      rw [hn] at this
      obtain ⟨f, hf, h⟩ := this
      exact ⟨f, by rw [rev] at hf; simpa using hf, h⟩
    | some n =>
      rw [hn] at this
      obtain ⟨h1, h2⟩ := this
      refine ⟨fun f hf => h1 f (by rw [rev]; simpa using hf), by rw [h2, ks]⟩
  · rw [Meth.run_calls_fields_size M 2 doc docs d _ _ (.inr (.inl ⟨rfl, rfl⟩)), Meth.run_fields_size M 2 docs]
    rw [ks]
    exact sub (List.dropLast_sublist _)
  · rw [Meth.run_calls_fields_size M 2 doc docs d _ _ (.inr (.inr ⟨rfl, rfl⟩)), Meth.run_fields_size M 2 docs]
    exact sub List.filter_sublist

/-- **C97**: if every field has a size and the sum does not fit into a `usize`, the macro panics. -/
theorem c97_overflow (doc : List Nat) (docs : PackField → List Nat) (d : Syn.PackDesc)
    (h : ∀ f ∈ d.fields, f.sizeBytes ≠ none) (hn : M < knownSize d.fields) :
    run M fs 4 i!"PackDesc" i!"packet_payload_size" [packV doc docs d] = .error .panic := by
  rw [isTypes_iff] at hfs
  subst hfs
  rw [Meth.run_calls_fields_size M 2 doc docs d _ _ (.inl ⟨rfl, rfl⟩)]
  exact Meth.run_fields_size_panic M 2 docs _ _ (sizeIs_unique (sizeIs_fieldsSize _) ⟨h, rfl⟩) hn

/-- **C97**: whatever method of a field, of a packet or of a payload length a generator of `output.rs` calls (C95,
C96), it gets what the method of that name in the text of `types.rs` returns. -/
theorem c97_called (doc : List Nat) (docs : PackField → List Nat) (n : Code.Name) (v : Quote.V) :
    (∀ f, Quote.methodOf (.packField (Quote.fieldV docs f)) n [] = .ok v →
      ∃ w, run M fs 4 i!"PackField" n [fieldV docs f] = .ok w ∧ SameValue w v) ∧
    (∀ d, knownSize d.fields ≤ M → Quote.methodOf (.pack (Quote.packV doc docs d)) n [] = .ok v →
      ∃ w, run M fs 4 i!"PackDesc" n [packV doc docs d] = .ok w ∧ SameValue w v) ∧
    (∀ l, Quote.methodOf (Quote.payloadLenV l) n [] = .ok v →
      ∃ w, run M fs 4 i!"PayloadLen" n [.payloadLen l] = .ok w ∧ SameValue w v) := by
  have opt (o : Option Nat) : SameValue (optV .num o) (Quote.optV (o.map Quote.usizeV)) := by
    cases o
    · exact .none
    · exact .some _ _ (.num _ _)
  refine ⟨fun f h => ?_, fun d hd h => ?_, fun l h => ?_⟩
  · obtain ⟨h1, h2, h3, h4, h5, h6⟩ := c97_field hfs M docs f
    simp only [Quote.methodOf] at h
    split at h
    · subst_vars; cases h; exact ⟨_, h4, .ty _⟩
    split at h
    · subst_vars; cases h; exact ⟨_, h5, .ident _⟩
    split at h
    · subst_vars; cases h; exact ⟨_, h6, .bool _⟩
    split at h
    · subst_vars; cases h
      refine ⟨_, h1, ?_⟩
      show SameValue _ (Quote.optV (f.sizeFn.map _))
      cases f.sizeFn with
      | none => exact .none
      | some p =>
        refine .some _ _ ?_
        have := SameValue.toks [.path p]
        rwa [show Quote.flatAll [.path p] = Quote.wordsToks p by simp [Quote.flatAll, Quote.Node.flat]] at this
    split at h
    · subst_vars; cases h; exact ⟨_, h2, .bool _⟩
    split at h
    · subst_vars; cases h; exact ⟨_, h3, .bool _⟩
    · cases h
  · obtain ⟨⟨_, _, rfl, h1⟩, ⟨_, _, rfl, h2⟩, ⟨_, _, rfl, h3⟩⟩ := c97_sizes hfs M doc docs d hd
    simp only [Quote.methodOf] at h
    split at h
    · subst_vars; cases h; exact ⟨_, h1, opt _⟩
    split at h
    · subst_vars; cases h; exact ⟨_, h2, opt _⟩
    split at h
    · subst_vars; cases h; exact ⟨_, h3, opt _⟩
    · cases h
  · have h1 := c97_fixed hfs M l
    cases l
    all_goals
      simp only [Quote.methodOf, Quote.payloadLenV] at h
      split at h
      · subst_vars; cases h
        refine ⟨_, h1, ?_⟩
        first
          | exact .some _ _ (.num _ _)
          | exact .none
      · cases h

end

/-- For a packet with fields of 4 and 1 bytes and the rest of the payload, on a machine with 16 bits -/
example : knownSize samplePacket.fields ≤ 65535 ∧ SizeIs samplePacket.fields none ∧
    SizeIs samplePacket.fields.dropLast (some 5) := by
  refine ⟨by decide, ⟨_, by simp [samplePacket]; exact .inr (.inr rfl), rfl⟩, ?_, by decide⟩
  decide

/-- An array that is too large for 16 bits -/
example : ∃ d : Syn.PackDesc, (∀ f ∈ d.fields, f.sizeBytes ≠ none) ∧ 65535 < knownSize d.fields :=
  ⟨{ samplePacket with fields := [⟨"a", .array (.path [.u8]) (.int 70000), ⟨none, none, none, false, false⟩, some 70000⟩] },
    by simp, by decide⟩

/-- A call of each kind -/
example (docs : PackField → List Nat) (f : PackField) : (∃ v, Quote.methodOf (.packField (Quote.fieldV docs f)) i!"size_fn" [] = .ok v) ∧
    (∃ v, Quote.methodOf (.pack (Quote.packV [] docs samplePacket)) i!"packet_payload_size" [] = .ok v) ∧
    (∃ v, Quote.methodOf (Quote.payloadLenV (.fixed 3)) i!"fixed" [] = .ok v) := ⟨⟨_, rfl⟩, ⟨_, rfl⟩, ⟨_, rfl⟩⟩

theorem crate_sizes : ∀ d ∈ Gen.allPackets, knownSize (Spec.packetCode d).fields ≤ 65535 := by decide +kernel

/-- **C97**, for the packets of the crate: no size overflows if `usize` has at least 16 bits, so the generators get for
every packet of the crate what the text of `types.rs` computes. -/
theorem c97_crate {fs : List Fn} (hfs : IsTypes fs) (M : Nat) (hM : 65535 ≤ M) (doc : List Nat) (docs : PackField → List Nat) :
    ∀ d ∈ Gen.allPackets, ∃ n, SizeIs (Spec.packetCode d).fields n ∧
      run M fs 4 i!"PackDesc" i!"packet_payload_size" [packV doc docs (Spec.packetCode d)] = .ok (optV .num n) := by
  intro d hd
  obtain ⟨⟨n, hn, _, h⟩, _⟩ := c97_sizes hfs M doc docs (Spec.packetCode d) (Nat.le_trans (crate_sizes d hd) hM)
  exact ⟨n, hn, h⟩

end Ublox.Props
