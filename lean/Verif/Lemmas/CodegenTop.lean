import Verif.Lemmas.CodegenExtend

/-!
# The generated code as a whole
-/

namespace Ublox.Rust
open Spec

variable {W E : Type} (x : Externs W E)

/-! ## Receiving -/

theorem getterDecls_names (fs : List FieldDesc) (off : Nat) (ss : List SizeFn) :
    ((genGetters fs off ss).flatMap getterDecls).map FnDecl.name = fs.flatMap fun f =>
      (if f.map.isSome && f.ty.size.isSome then [f.getName ++ "_raw"] else []) ++ [f.getName] := by
  induction fs generalizing off ss with
  | nil => rfl
  | cons f fs ih =>
    simp only [genGetters]
    cases hn : f.ty.size with
    | some n =>
      simp only [List.flatMap_cons, List.map_append, ih]
      congr 1
      simp only [getterDecls, hn, Option.isSome_some, Bool.and_true]
      split <;> rfl
    | none =>
      simp only [List.flatMap_cons, List.map_append, ih]
      congr 1
      simp only [getterDecls, hn, Option.isSome_none, Bool.and_false, Bool.false_eq_true, if_false]
      rfl

theorem methodNamed_of_mem {ms : List FnDecl} {m : FnDecl} (hm : m ∈ ms)
    (hn : (ms.map FnDecl.name).Nodup) : methodNamed ms m.name = some m := by
  induction ms with
  | nil => cases hm
  | cons a ms ih =>
    simp only [List.map_cons, List.nodup_cons] at hn
    simp only [methodNamed, List.find?_cons]
    cases hm with
    | head => simp
    | tail _ h =>
      have : a.name ≠ m.name := by
        intro h'
        exact hn.1 (h' ▸ List.mem_map_of_mem h)
      simp only [this, decide_false]
      exact ih h hn.2

/-- The only accessor of this name. -/
theorem getters_find {d : Ublox.PackDesc} {g : Getter} (hg : g ∈ d.getters)
    (hn : (d.getters.map fun g => g.field.getName).Nodup) :
    (d.getters.find? fun h => h.field.getName == g.field.getName) = some g := by
  revert hg hn
  generalize d.getters = gs
  intro hg hn
  induction gs with
  | nil => cases hg
  | cons a gs ih =>
    simp only [List.map_cons, List.nodup_cons] at hn
    simp only [List.find?_cons]
    cases hg with
    | head => simp
    | tail _ h =>
      have : a.field.getName ≠ g.field.getName := by
        intro h'
        exact hn.1 (h' ▸ List.mem_map_of_mem (f := fun g : Getter => g.field.getName) h)
      simp only [beq_eq_false_iff_ne.mpr this]
      exact ih h hn.2

theorem genGetters_fields (fs : List FieldDesc) (off : Nat) (ss : List SizeFn) :
    (genGetters fs off ss).map (·.field) = fs := by
  induction fs generalizing off ss with
  | nil => rfl
  | cons f fs ih =>
    simp only [genGetters]
    cases f.ty.size <;> simp [ih]

theorem getNames_nodup {d : Ublox.PackDesc} (h : (methodNames d).Nodup) :
    (d.getters.map fun g => g.field.getName).Nodup := by
  have h1 : (d.getters.map fun g => g.field.getName) = d.fields.map FieldDesc.getName := by
    rw [show (fun g : Getter => g.field.getName) = FieldDesc.getName ∘ (·.field) from rfl, ← List.map_map,
      PackDesc.getters, genGetters_fields]
  rw [h1]
  have h2 : List.Sublist (d.fields.map FieldDesc.getName) (d.fields.flatMap fun f =>
      (if f.map.isSome && f.ty.size.isSome then [f.getName ++ "_raw"] else []) ++ [f.getName]) := by
    generalize d.fields = fs
    induction fs with
    | nil => exact .slnil
    | cons f fs ih =>
      simp only [List.map_cons, List.flatMap_cons, List.append_assoc]
      refine List.Sublist.trans ?_ (List.sublist_append_right _ _)
      exact ih.cons_cons _
  refine List.Nodup.sublist (h2.trans ?_) h
  unfold methodNames
  exact (List.sublist_append_left _ _).trans (.cons _ (List.Sublist.refl _))

theorem generateRecvCode_eq {d : Ublox.PackDesc} (hacc : d.parse = .ok d)
    (hmap : ∀ f ∈ d.fields, f.sizeFn.isSome → f.map.isSome) :
    generateRecvCode (packetCode d) = (validateCode (packetCode d)
        (d.getters.flatMap fun g => fieldValidator d.name (fieldCode g.field) g.off)).map fun v =>
      { packName := d.name, methods := asBytesCode :: d.getters.flatMap getterDecls ++ [v]
        debug := debugCode (packetCode d), serializeFields := serializeFieldsCode (packetCode d)
        serialize := serializeCode } := by
  have h1 : recvFields d.name (d.fields.map fieldCode) 0 [] = _ :=
    recvFields_eq d.name d.fields 0 [] (parse_sized hacc) hmap
  simp only [generateRecvCode]
  rw [show (packetCode d).name = d.name from rfl, show (packetCode d).fields = d.fields.map fieldCode from rfl,
    h1]
  show (validateCode _ _ >>= _) = _
  rw [show genGetters d.fields 0 [] = d.getters from rfl]
  cases validateCode (packetCode d)
    (d.getters.flatMap fun g => fieldValidator d.name (fieldCode g.field) g.off) <;> rfl

/-- The generated methods for receiving. -/
theorem recv_methods {d : Ublox.PackDesc} (hacc : d.parse = .ok d)
    (hmap : ∀ f ∈ d.fields, f.sizeFn.isSome → f.map.isSome) (hn : (methodNames d).Nodup)
    (hx : RecvLinks x d) (hM : SizesFit x.maxUsize d) {code : RecvCode}
    (hcode : generateRecvCode (packetCode d) = .ok code) :
    code.methods.map FnDecl.name = methodNames d ∧
    (∀ f ∈ d.fields, ∃ m, methodNamed code.methods f.getName = some m ∧
      ∀ payload, m.call x [refV d.name payload] = valV <$> d.get f.getName payload) ∧
    (∀ f ∈ d.fields, f.map.isSome → f.ty.size.isSome →
      ∃ m, methodNamed code.methods (f.getName ++ "_raw") = some m ∧
      ∀ payload, m.call x [refV d.name payload] = rawV <$> d.getRaw f.getName payload) ∧
    (∃ m, methodNamed code.methods "validate" = some m ∧
      ∀ payload, m.call x [.bytes payload] = resultV <$> d.validate payload) ∧
    (∃ m, methodNamed code.methods "as_bytes" = some m ∧
      ∀ payload, m.call x [refV d.name payload] = .ok (.bytes payload)) := by
  obtain ⟨v, hv, hvn, hvc⟩ := validateCode_call x hacc hmap hx hM
  rw [generateRecvCode_eq hacc hmap, hv] at hcode
  cases hcode
  have hnames : (asBytesCode :: d.getters.flatMap getterDecls ++ [v]).map FnDecl.name = methodNames d := by
    rw [methodNames, List.map_append, List.map_cons]
    rw [show (d.getters.flatMap getterDecls).map FnDecl.name = _ from getterDecls_names d.fields 0 []]
    rw [List.map_singleton, hvn]
    rfl
  have hnd : ((asBytesCode :: d.getters.flatMap getterDecls ++ [v]).map FnDecl.name).Nodup := hnames ▸ hn
  have hget : ∀ f ∈ d.fields, ∃ g ∈ d.getters, g.field = f := by
    intro f hf
    rw [← genGetters_fields d.fields 0 []] at hf
    exact List.mem_map.mp hf
  have hmem : ∀ g ∈ d.getters, ∀ m ∈ getterDecls g,
      m ∈ asBytesCode :: d.getters.flatMap getterDecls ++ [v] := by
    intro g hg m hm
    simp only [List.cons_append, List.mem_cons, List.mem_append, List.mem_flatMap]
    exact .inr (.inl ⟨g, hg, hm⟩)
  have hbound : ∀ g ∈ d.getters, g.field ∈ d.fields ∧
      (∀ s ∈ g.sizeFns, ∃ f ∈ d.fields, f.sizeFn = some s) ∧
      g.off + g.field.ty.size.getD 0 + 128 * (g.sizeFns.length + g.field.sizeFn.toList.length) ≤
        x.maxUsize := by
    intro g hg
    obtain ⟨h1, h2, h3⟩ := genGetters_bounds hg
    refine ⟨h1, fun s hs => ?_, ?_⟩
    · obtain h | h := h2 s hs
      · cases h
      · exact h
    · unfold SizesFit at hM
      simp only [List.length_nil] at h3
      refine Nat.le_trans h3 (Nat.le_trans (Nat.le_of_eq ?_) hM)
      rw [Nat.zero_add, Nat.zero_add]
  refine ⟨hnames, ?_, ?_, ?_, ?_⟩
  · intro f hf
    obtain ⟨g, hg, rfl⟩ := hget f hf
    obtain ⟨h1, h2, h3⟩ := hbound g hg
    have hfind : ∀ payload, d.get g.field.getName payload = g.run d payload := by
      intro payload
      simp only [PackDesc.get, getters_find hg (getNames_nodup hn)]
    cases hs : g.field.ty.size with
    | some n =>
      have hm : sizedGetter (fieldCode g.field) n g.off ∈ getterDecls g := by
        simp [getterDecls, hs]
      refine ⟨_, methodNamed_of_mem (hmem g hg _ hm) hnd, fun payload => ?_⟩
      rw [hs, Option.getD_some] at h3
      rw [sizedGetter_call x d.name payload hs (by omega) (hx.field h1), hfind]
      unfold Getter.run Getter.runSized
      rw [hs]
    | none =>
      have hm : unsizedGetter (fieldCode g.field) g.off (g.sizeFns.map sizeFnText) ∈ getterDecls g := by
        simp [getterDecls, hs]
      refine ⟨_, methodNamed_of_mem (hmem g hg _ hm) hnd, fun payload => ?_⟩
      rw [hfind]
      refine unsizedGetter_call x payload hs (hx.field h1) (hmap _ h1) ?_ ?_ ?_
      · intro s hs'
        obtain ⟨f, hf, hfs⟩ := h2 s hs'
        exact fun payload => hx.sizeFn f hf s hfs payload
      · intro s hs'
        exact fun payload => hx.sizeFn _ h1 s hs' payload
      · cases hsf : g.field.sizeFn with
        | none => exact .inr rfl
        | some s =>
          left
          rw [hsf] at h3
          simp only [Option.toList_some, List.length_singleton] at h3
          omega
  · intro f hf hmp hsz
    obtain ⟨g, hg, rfl⟩ := hget f hf
    obtain ⟨h1, h2, h3⟩ := hbound g hg
    obtain ⟨n, hs⟩ := Option.isSome_iff_exists.mp hsz
    have hm : rawGetter (fieldCode g.field) n g.off ∈ getterDecls g := by
      simp [getterDecls, hs, hmp]
    refine ⟨_, methodNamed_of_mem (hmem g hg _ hm) hnd, fun payload => ?_⟩
    rw [hs, Option.getD_some] at h3
    rw [rawGetter_call x d.name payload hs (by omega)]
    simp only [PackDesc.getRaw, getters_find hg (getNames_nodup hn), Getter.runRaw, hmp, if_true]
  · refine ⟨v, ?_, hvc⟩
    rw [← hvn]
    exact methodNamed_of_mem (by simp) hnd
  · refine ⟨asBytesCode, methodNamed_of_mem (m := asBytesCode) (by simp) hnd, fun payload => ?_⟩
    rw [call_eq x rfl]
    show resultOf <$> evalStmts x [.tail selfBytes] [(.self_, refV d.name payload)] = _
    rw [stmts_tail, eval_selfBytes x (name := d.name) rfl]
    rfl

/-! ## Sending -/

theorem sendFields_eq : ∀ (fs : List FieldDesc) (off : Nat),
    (∀ f ∈ fs.dropLast, f.ty.size ≠ none) →
    ∃ s, sendFields (fs.map fieldCode) off = .ok s ∧
      s.fields = (fs.map fun f => ((fieldCode f).intermediateFieldName, (fieldCode f).intermediateType)) ∧
      s.extendFields = (fs.flatMap fun f =>
        if f.ty.size.isSome then extendFieldCode (fieldCode f) else extendIterCode (fieldCode f)) ∧
      ((∀ f ∈ fs, f.ty.size ≠ none) → s.packFields = packCode fs off ∧
        s.writeFields = fs.flatMap fun f => writeFieldCode (fieldCode f))
  | [], off, _ => ⟨{}, rfl, rfl, rfl, fun _ => ⟨rfl, rfl⟩⟩
  | f :: fs, off, h => by
    have hsz : (fieldCode f).sizeBytes = f.ty.size := rfl
    have h' : ∀ g ∈ fs.dropLast, g.ty.size ≠ none := by
      intro g hg
      refine h g ?_
      cases fs with
      | nil => simp at hg
      | cons a as => simp [List.dropLast_cons_cons, hg]
    simp only [List.map_cons, sendFields, hsz]
    cases hn : f.ty.size with
    | none =>
      cases fs with
      | cons a as => exact absurd hn (h f (by simp [List.dropLast_cons_cons]))
      | nil =>
        refine ⟨_, rfl, rfl, ?_, fun hall => absurd hn (hall f (.head _))⟩
        simp [hn]
    | some n =>
      obtain ⟨s, hs, h1, h2, h3⟩ := sendFields_eq fs (off + n) h'
      simp only [hs]
      refine ⟨_, rfl, ?_, ?_, ?_⟩
      · simp only [h1]
      · simp only [h2, List.flatMap_cons, hn, Option.isSome_some, if_true]
      · intro hall
        obtain ⟨h4, h5⟩ := h3 fun g hg => hall g (.tail _ hg)
        refine ⟨?_, ?_⟩
        · simp only [h4, packCode, hn, Option.getD_some]
        · simp only [h5, List.flatMap_cons]

/-- The values of a builder can be read by the names of the fields. -/
theorem builderV_hasField {d : Ublox.PackDesc} {b : Builder} (hn : (d.fields.map FieldDesc.getName).Nodup) :
    ∀ p ∈ d.fields.zip b, HasField (builderV d b : V W E) p.1 p.2 := by
  unfold HasField builderV
  simp only [fieldV]
  revert hn
  generalize d.fields = fs
  induction fs generalizing b with
  | nil => intro _ p hp; simp at hp
  | cons f fs ih =>
    intro hn p hp
    cases b with
    | nil => simp at hp
    | cons v b =>
      simp only [List.map_cons, List.nodup_cons] at hn
      simp only [List.map_cons, List.zip_cons_cons, List.lookup_cons]
      simp only [List.zip_cons_cons, List.mem_cons] at hp
      obtain rfl | hp := hp
      · simp
      · have : p.1.getName ≠ f.getName := by
          intro h
          exact hn.1 (h ▸ List.mem_map_of_mem (List.of_mem_zip hp).1)
        rw [beq_eq_false_iff_ne.mpr this]
        exact ih (b := b) hn.2 p hp

theorem runMut_eq {f : FnDecl} {B o : V W E} (h : f.params = [.self_, .out]) {r : R (V W E × V W E)}
    (hr : outObs <$> evalStmts x f.body [(.out, o), (.self_, B)] = (fun p => (p.1, some p.2)) <$> r) :
    runMut x f B o = r := by
  have hlen : f.params.length = [B, o].length := by rw [h]; rfl
  have hbind : bindParams f.params [B, o] = [(.out, o), (.self_, B)] := by rw [h]; rfl
  simp only [runMut, FnDecl.run, hlen, ne_eq, not_true_eq_false, if_false, hbind]
  cases he : evalStmts x f.body [(.out, o), (.self_, B)] with
  | error p =>
    rw [he] at hr
    cases r with
    | error q => cases hr; rfl
    | ok q => cases hr
  | ok q =>
    rw [he] at hr
    obtain ⟨v, env⟩ := q
    cases r with
    | error q => cases hr
    | ok q =>
      have h' : outObs (v, env) = (q.1, some q.2) := Except.ok.inj hr
      simp only [outObs, Prod.mk.injEq] at h'
      cases v <;> simp only [resultOf] at h' <;>
        simp [bind, Except.bind, pure, Except.pure, h'.1, h'.2]

theorem code_packetPayloadSize (d : Ublox.PackDesc) :
    (packetCode d).packetPayloadSize = d.packetPayloadSize := code_fieldsSize d.fields

theorem code_default (d : Ublox.PackDesc) :
    ((packetCode d).header.flags.any fun f => f = .defaultForBuilder) = d.defaultForBuilder := by
  simp only [packetCode]
  cases d.defaultForBuilder <;> rfl

theorem fieldsSize_some {fs : List FieldDesc} {n : Nat} (h : fieldsSize fs = some n) :
    ∀ f ∈ fs, f.ty.size ≠ none := by
  induction fs generalizing n with
  | nil => simp
  | cons f fs ih =>
    simp only [fieldsSize] at h
    intro g hg
    cases hf : f.ty.size with
    | none => rw [hf] at h; cases h
    | some m =>
      rw [hf] at h
      cases hg with
      | head => simp [hf]
      | tail _ hg =>
        cases hs : fieldsSize fs with
        | none => simp [hs] at h
        | some k => exact ih hs g hg

theorem okBind' {ε α β : Type} (a : α) (f : α → Except ε β) : ((Except.ok a : Except ε α) >>= f) = f a := rfl

/-- The generated builder of a packet of a fixed length. -/
theorem send_fixed {d : Ublox.PackDesc} {size : Nat} (hsz : d.packetPayloadSize = some size)
    (hlt : size < 65536) :
    ∃ s : SendCode, generateSendCode (packetCode d) = .ok s ∧ s.packName = d.name ∧
      s.default = d.defaultForBuilder ∧
      s.fields = (d.fields.map fun f =>
        ((fieldCode f).intermediateFieldName, (fieldCode f).intermediateType)) ∧
      s.body = .fixed (size + 8) (intoPacketBytesCode d.name size (packCode d.fields 6))
        (fromBuilderCode (d.name ++ "Builder")) (createPacketCode d.name size
          (d.fields.flatMap fun f => writeFieldCode (fieldCode f))) := by
  have hall := fieldsSize_some (show fieldsSize d.fields = some size from hsz)
  obtain ⟨s, h1, h2, h3, h4⟩ := sendFields_eq d.fields 6 fun f hf => hall f (List.dropLast_subset _ hf)
  obtain ⟨h5, h6⟩ := h4 hall
  unfold generateSendCode
  rw [show (packetCode d).fields = d.fields.map fieldCode from rfl, h1, okBind', code_packetPayloadSize, hsz]
  dsimp only
  rw [if_pos hlt, h5, h6]
  exact ⟨_, rfl, rfl, code_default d, h2, rfl⟩

/-- The generated builder of a packet of any length. -/
theorem send_dynamic {d : Ublox.PackDesc} (hsz : d.packetPayloadSize = none)
    (hl : ∀ f ∈ d.fields.dropLast, f.ty.size ≠ none) :
    ∃ s : SendCode, generateSendCode (packetCode d) = .ok s ∧ s.packName = d.name ∧
      s.default = d.defaultForBuilder ∧
      s.fields = (d.fields.map fun f =>
        ((fieldCode f).intermediateFieldName, (fieldCode f).intermediateType)) ∧
      s.body = .dynamic intoPacketVecCode (extendToCode d.name (d.fields.flatMap fun f =>
        if f.ty.size.isSome then extendFieldCode (fieldCode f) else extendIterCode (fieldCode f))) := by
  obtain ⟨s, h1, h2, h3, h4⟩ := sendFields_eq d.fields 6 hl
  unfold generateSendCode
  rw [show (packetCode d).fields = d.fields.map fieldCode from rfl, h1, okBind', code_packetPayloadSize, hsz]
  refine ⟨_, rfl, rfl, code_default d, h2, ?_⟩
  show BuilderBody.dynamic intoPacketVecCode (extendToCode d.name s.extendFields) = _
  rw [h3]

theorem sendFields_error (fs : List FieldDesc) (off : Nat) (h : ¬ ∀ f ∈ fs.dropLast, f.ty.size ≠ none) :
    sendFields (fs.map fieldCode) off = .error "Iterator field must be the last field." := by
  induction fs generalizing off with
  | nil => simp at h
  | cons f fs ih =>
    have hsz : (fieldCode f).sizeBytes = f.ty.size := rfl
    simp only [List.map_cons, sendFields, hsz]
    cases hn : f.ty.size with
    | none =>
      cases fs with
      | nil => simp at h
      | cons a as => simp
    | some n =>
      have : ¬ ∀ g ∈ fs.dropLast, g.ty.size ≠ none := by
        intro h'
        apply h
        intro g hg
        cases fs with
        | nil => simp at hg
        | cons a as =>
          rw [List.dropLast_cons_cons] at hg
          cases hg with
          | head => simp [hn]
          | tail _ hg => exact h' g hg
      simp only [ih (off + n) this]
      rfl

end Ublox.Rust
