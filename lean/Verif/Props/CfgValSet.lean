import Verif.Lemmas.Extend
import Verif.Props.Build
import Verif.Props.CfgVal

/-! # Properties of `CfgValSetBuilder`: C38 and C39 -/

namespace Ublox.Props
open Spec Gen
open Ublox.Parser

/-- The fields of a `CfgValSetBuilder`. -/
structure ValSet where
  version : UInt8
  layers : Nat
  reserved : UInt16
  values : List CfgVal

/-- The builder. -/
def ValSet.builder (s : ValSet) : Builder :=
  [.raw (.u8 s.version), .flags s.layers, .raw (.u16 s.reserved), .cfgVals s.values]

/-- The layers are a set of flags of one byte, the values are values of the Rust enum. -/
def ValSet.Ok (s : ValSet) : Prop := s.layers < 256 ∧ ∀ v ∈ s.values, IsCfgVal cfgItems v

/-- What the payload should be: version, layers, reserved, key-value pairs. -/
def ValSet.payload (s : ValSet) : Bytes :=
  natLe 1 s.version.toNat ++ natLe 1 s.layers ++ natLe 2 s.reserved.toNat ++ cfgKvs s.values

theorem valSet_length (s : ValSet) : s.payload.length = 4 + (cfgKvs s.values).length := by
  simp only [ValSet.payload, List.length_append, natLe_length]

/-- The exact effect of `extend_to`. -/
theorem valSet_extendTo {M : Nat} {s : ValSet} (hs : s.Ok) (out : Bytes)
    (hM : s.payload.length ≤ M) :
    cfgValSet_.extendTo M s.builder out = .ok (extended out 0x06 0x8a s.payload) := by
  have hp : s.payload = [[s.version], [UInt8.ofNat s.layers], u16ToLe s.reserved].flatten ++
      cfgKvs s.values := by
    unfold ValSet.payload
    rw [u16ToLe_eq]
    simp [natLe, Nat.mod_eq_of_lt hs.1, Nat.mod_eq_of_lt s.version.toNat_lt]
  have hf : cfgValSet_.fields = cfgValSet_.fields.take 3 ++ [{ name := "cfg_data", ty := .tail }] := by
    decide +kernel
  rw [hp] at hM ⊢
  refine extendTo_eq (b := [.raw (.u8 s.version), .flags s.layers, .raw (.u16 s.reserved)])
    (by decide +kernel) hf rfl ?_ hs.2 out hM
  refine ⟨rfl, rfl, by decide, ?_, rfl, by decide, rfl, rfl, by decide, trivial⟩
  have hfl : cfgLayer_ ∈ allFlags := by decide +kernel
  have := (c29_flags_keep_bits cfgLayer_ hfl).2.1 s.layers (by
    have := hs.1
    rw [show cfgLayer_.nbits = 8 from rfl]
    omega)
  have hi : cfgLayer_.intoRaw = true := rfl
  have hn : cfgLayer_.nbits = 8 := rfl
  simp only [FieldDesc.bytes, Conv.intoRaw, this, hi, beq_self_eq_true, Bool.and_self, if_true, hn,
    RawVal.ofUnsigned]
  rfl

theorem extended_nil (c i : UInt8) (p : Bytes) :
    extended [] c i p = frame c i p := by
  have h1 : UInt8.ofNat (p.length % 256) = UInt8.ofNat p.length := by
    apply UInt8.toNat_inj.mp; simp
  simp [extended, frame, body, h1]

/-! ## C38 -/

/-- **C38**, partial: `into_packet_vec` gives a well-formed frame with this payload if the payload
has at most 65535 bytes.  Longer lists: see `c38_length_wraps`. -/
theorem c38_frame_partial {M : Nat} {s : ValSet} (hs : s.Ok) (hM : 65535 ≤ M)
    (hl : s.payload.length ≤ 65535) :
    cfgValSet_.intoPacketVec M s.builder = .ok (frame 0x06 0x8a s.payload) := by
  unfold PackDesc.intoPacketVec
  rw [valSet_extendTo hs [] (by omega), extended_nil]

/-- The payload determines the version, the layers, the reserved word and the list of values. -/
theorem c38_injective {s t : ValSet} (hs : s.Ok) (ht : t.Ok) (h : s.payload = t.payload) :
    s = t := by
  have hkv : ∀ (vs ws : List CfgVal), (∀ v ∈ vs, IsCfgVal cfgItems v) →
      (∀ v ∈ ws, IsCfgVal cfgItems v) → cfgKvs vs = cfgKvs ws → vs = ws := by
    intro vs
    induction vs with
    | nil =>
      intro ws _ _ h
      cases ws with
      | nil => rfl
      | cons w ws =>
        have := congrArg List.length h
        have hk := cfgKv_length w
        simp [cfgKvs] at this
        omega
    | cons v vs ih =>
      intro ws hv hw h
      cases ws with
      | nil =>
        have := congrArg List.length h
        have hk := cfgKv_length v
        rw [show cfgKvs (v :: vs) = cfgKv v ++ cfgKvs vs from rfl, List.length_append] at this
        simp [cfgKvs] at this
        rw [this.1] at hk
        simp at hk
        omega
      | cons w ws =>
        have e1 : cfgKvs (v :: vs) = cfgKv v ++ cfgKvs vs := rfl
        have e2 : cfgKvs (w :: ws) = cfgKv w ++ cfgKvs ws := rfl
        rw [e1, e2] at h
        have p1 := c35_parse (hv v (by simp)) (cfgKvs vs)
        have p2 := c35_parse (hw w (by simp)) (cfgKvs ws)
        rw [h, p2] at p1
        have : w = v := Except.ok.inj p1
        subst this
        rw [ih ws (fun x hx => hv x (by simp [hx])) (fun x hx => hw x (by simp [hx]))
          (List.append_cancel_left h)]
  obtain ⟨v, l, r, vs⟩ := s
  obtain ⟨v', l', r', vs'⟩ := t
  simp only [ValSet.payload] at h
  simp only [List.append_assoc] at h
  obtain ⟨h1, h⟩ := List.append_inj h (by simp [natLe_length])
  obtain ⟨h2, h⟩ := List.append_inj h (by simp [natLe_length])
  obtain ⟨h3, h⟩ := List.append_inj h (by simp [natLe_length])
  have hle : ∀ n x y, x < 256 ^ n → y < 256 ^ n → natLe n x = natLe n y → x = y := by
    intro n x y hx hy hxy
    have := congrArg leNat hxy
    rwa [leNat_natLe, leNat_natLe, Nat.mod_eq_of_lt hx, Nat.mod_eq_of_lt hy] at this
  have a1 := UInt8.toNat_inj.mp (hle 1 _ _ v.toNat_lt v'.toNat_lt h1)
  have a2 : l = l' := hle 1 _ _ hs.1 ht.1 h2
  have a3 := UInt16.toNat_inj.mp (hle 2 _ _ r.toNat_lt r'.toNat_lt h3)
  rw [a1, a2, a3, hkv vs vs' hs.2 ht.2 h]

/-- A parser returns it as one packet of class 06, id 8a with this payload, if it does not exceed
the limit of the parser. -/
theorem c38_parsed {M : Nat} (hM : 65535 ≤ M) {s : ValSet} (hs : s.Ok)
    (hl : s.payload.length ≤ 8176) {bytes : Bytes}
    (hb : cfgValSet_.intoPacketVec M s.builder = .ok bytes)
    (h : List (Bytes × Nat)) (hfed : fedBytes h = bytes)
    (hc : ∀ x ∈ h, x.1.length + 8176 + 8 ≤ M / 2)
    {rss q} (hq : session M crateDispatch (vecParser M) h = some (.ok (rss, q)))
    (he : Exhausted rss) :
    ∃ p : PacketRef, results rss = [.ok p] ∧ p.classAndMsgId = (0x06, 0x8a) ∧
      p.payload = s.payload := by
  rw [c38_frame_partial hs hM (by omega)] at hb
  have hb := Except.ok.inj hb
  have hm := crate_max
  obtain ⟨h1, -⟩ := c04_vec_clean_stream (D := crateDispatch) (by omega) (by omega)
    [([], 0x06, 0x8a, s.payload)] [] (by simp) (by simp) (by simp; omega) h
    (by rw [hfed, ← hb]; simp [cleanStream]) (by rw [hm]; exact hc) hq he
  obtain ⟨p, p1, p2, p3⟩ := delivered_match 0x06 0x8a s.payload
  refine ⟨p, ?_, p2, p3⟩
  rw [h1]
  simp only [List.map_cons, List.map_nil, p1]

/-- **C38** is false for long lists: as soon as the payload has more than 65535 bytes, what
`into_packet_vec` returns is not a frame of any payload that fits the 16-bit length field. -/
theorem c38_length_wraps {M : Nat} {s : ValSet} (hs : s.Ok) (hM : s.payload.length ≤ M)
    (hl : 65535 < s.payload.length) :
    ∃ bytes, cfgValSet_.intoPacketVec M s.builder = .ok bytes ∧
      ∀ c i p, p.length ≤ 65535 → bytes ≠ frame c i p := by
  refine ⟨_, valSet_extendTo hs [] hM, fun c i p hp h => ?_⟩
  have h1 := congrArg List.length h
  rw [frame_length] at h1
  simp [extended] at h1
  omega

/-- A list of `n` times the same setting. -/
def exValSet (n : Nat) : ValSet :=
  ⟨0, 1, 0, List.replicate n ⟨⟨"Uart1StopBits", 0x20520002, .stopBits⟩, .stopBits .two⟩⟩

theorem exValSet_ok (n : Nat) : (exValSet n).Ok ∧ (exValSet n).payload.length = 4 + 5 * n := by
  have hi : IsCfgVal cfgItems ⟨⟨"Uart1StopBits", 0x20520002, .stopBits⟩, .stopBits .two⟩ := by
    decide +kernel
  refine ⟨⟨show 1 < 256 by decide, fun v hv => ?_⟩, ?_⟩
  · rw [List.eq_of_mem_replicate hv]; exact hi
  · rw [valSet_length]
    congr 1
    induction n with
    | zero => rfl
    | succ n ih =>
      have e : cfgKvs (exValSet (n + 1)).values =
        cfgKv ⟨⟨"Uart1StopBits", 0x20520002, .stopBits⟩, .stopBits .two⟩ ++
          cfgKvs (exValSet n).values := rfl
      rw [e, List.length_append, ih]
      have : (cfgKv ⟨⟨"Uart1StopBits", 0x20520002, .stopBits⟩, .stopBits .two⟩).length = 5 := by
        decide +kernel
      omega

example : (exValSet 14000).Ok ∧ 65535 < (exValSet 14000).payload.length := by
  have := exValSet_ok 14000; exact ⟨this.1, by omega⟩
example : (exValSet 3).Ok ∧ (exValSet 3).payload.length ≤ 8176 := by
  have := exValSet_ok 3; exact ⟨this.1, by omega⟩

/-- The declared maximal payload length of 772 bytes is not enforced: a list of 200 settings gives a
frame with a longer payload. -/
theorem c38_max_not_enforced {M : Nat} (hM : 65535 ≤ M) :
    ∃ s : ValSet, s.Ok ∧ cfgValSet_.maxPayloadLen < s.payload.length ∧
      cfgValSet_.intoPacketVec M s.builder = .ok (frame 0x06 0x8a s.payload) := by
  have h := exValSet_ok 200
  refine ⟨exValSet 200, h.1, ?_, c38_frame_partial h.1 hM (by omega)⟩
  rw [h.2]; decide +kernel

/-! ## C39 -/

/-- **C39**, partial: into an empty output, `extend_to` puts the same bytes as `into_packet_vec`.
Any other output: see `c39_never_appends`. -/
theorem c39_empty_partial {M : Nat} {s : ValSet} (hs : s.Ok) (hM : 65535 ≤ M)
    (hl : s.payload.length ≤ 65535) :
    cfgValSet_.extendTo M s.builder [] = .ok (frame 0x06 0x8a s.payload) ∧
    cfgValSet_.intoPacketVec M s.builder = .ok (frame 0x06 0x8a s.payload) :=
  ⟨c38_frame_partial hs hM hl, c38_frame_partial hs hM hl⟩

/-- **C39** is false for every output that is not empty: the bytes that are appended are never the
frame, because the length goes to the bytes 4 and 5 of the whole output. -/
theorem c39_never_appends {M : Nat} {s : ValSet} (hs : s.Ok) (hM : 65535 ≤ M)
    (hl : s.payload.length ≤ 65535) {out : Bytes} (ho : out ≠ []) :
    ∃ res, cfgValSet_.extendTo M s.builder out = .ok res ∧
      res ≠ out ++ frame 0x06 0x8a s.payload ∧ res.drop out.length ≠ frame 0x06 0x8a s.payload := by
  have h4 : 4 ≤ s.payload.length := by rw [valSet_length]; omega
  refine ⟨_, valSet_extendTo hs out (by omega), ?_⟩
  have key : (extended out 0x06 0x8a s.payload).drop out.length ≠ frame 0x06 0x8a s.payload := by
    generalize s.payload = p at h4 hl
    intro h
    have hb : ∀ k, (extended out 0x06 0x8a p)[out.length + k]? = (frame 0x06 0x8a p)[k]? := by
      intro k; rw [← h, List.getElem?_drop]
    have hlo : (frame 0x06 0x8a p)[4]? = some (UInt8.ofNat (p.length % 256)) := rfl
    have hhi : (frame 0x06 0x8a p)[5]? = some (UInt8.ofNat (p.length / 256)) := rfl
    have hn : 0 < out.length := List.length_pos_iff.mpr ho
    have hget : ∀ k, k < 6 → out.length + k ≠ 4 → out.length + k ≠ 5 →
        (extended out 0x06 0x8a p)[out.length + k]? =
          ([0xb5, 0x62, 0x06, 0x8a, 0, 0] : Bytes)[k]? := by
      intro k hk h4 h5
      unfold extended
      simp only
      rw [List.getElem?_append_left (by simp; omega), List.getElem?_set_ne (by omega),
        List.getElem?_set_ne (by omega), List.getElem?_append_right (by omega),
        List.getElem?_append_left (by simp; omega)]
      congr 1; omega
    by_cases h1 : out.length = 1
    · have e3 : (extended out 0x06 0x8a p)[out.length + 3]? = some (UInt8.ofNat p.length) := by
        unfold extended
        simp only
        rw [h1, List.getElem?_append_left (by simp; omega), List.getElem?_set_ne (by omega),
          List.getElem?_set_self (by simp; omega)]
      have e4 : (extended out 0x06 0x8a p)[out.length + 4]? = some (UInt8.ofNat (p.length / 256)) := by
        unfold extended
        simp only
        rw [h1, List.getElem?_append_left (by simp; omega),
          List.getElem?_set_self (by simp; omega)]
      have e5 := hget 5 (by omega) (by omega) (by omega)
      rw [hb, hhi] at e5
      have f3 : (frame 0x06 0x8a p)[3]? = some 0x8a := rfl
      rw [hb, f3] at e3
      rw [hb, hlo] at e4
      simp only [List.getElem?_cons_succ, List.getElem?_cons_zero, Option.some.injEq] at e3 e4 e5
      have g3 := congrArg UInt8.toNat e3
      have g4 := congrArg UInt8.toNat e4
      have g5 := congrArg UInt8.toNat e5
      simp at g3 g4 g5
      omega
    · have e4 := hget 4 (by omega) (by omega) (by omega)
      have e5 := hget 5 (by omega) (by omega) (by omega)
      rw [hb, hlo] at e4
      rw [hb, hhi] at e5
      simp only [List.getElem?_cons_succ, List.getElem?_cons_zero, Option.some.injEq] at e4 e5
      have g4 := congrArg UInt8.toNat e4
      have g5 := congrArg UInt8.toNat e5
      simp at g4 g5
      omega
  refine ⟨fun h => key ?_, key⟩
  rw [h, List.drop_left']
  rfl

/-- **C39**: even the previous content is changed if it has at least six bytes: bytes 4 and 5 are
overwritten by the length. -/
theorem c39_overwrites {M : Nat} {s : ValSet} (hs : s.Ok) (hM : 65535 ≤ M)
    (hl : s.payload.length ≤ 65535) {out : Bytes} (ho : 6 ≤ out.length) :
    ∃ res, cfgValSet_.extendTo M s.builder out = .ok res ∧
      res.take out.length = (out.set 4 (UInt8.ofNat s.payload.length)).set 5
        (UInt8.ofNat (s.payload.length / 256)) := by
  refine ⟨_, valSet_extendTo hs out (by omega), ?_⟩
  unfold extended
  simp only
  rw [List.take_append_of_le_length (by simp), List.set_append_left _ _ (by omega),
    List.set_append_left _ _ (by simp; omega), List.take_left' (by simp)]

example : cfgValSet_.extendTo 65535 (exValSet 0).builder [1, 2, 3, 4, 5, 6] =
    .ok [1, 2, 3, 4, 4, 0, 0xb5, 0x62, 6, 0x8a, 0, 0, 0, 1, 0, 0, 0xb3, 0x0b] := by decide +kernel

end Ublox.Props
