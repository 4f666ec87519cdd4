import Verif.Lemmas.Device
import Verif.Props.Ack

/-!
# C62, C63: the example program reads a serial port

`port` is any sequence of answers of the serial port; `dev` is any state in which `Holds` is true, such
as the initial one and, by the theorems, the one after each call.
-/

namespace Ublox.Props

open Spec Gen

variable {P E σ : Type} {M : Nat} {D : Dispatch P}

theorem new_holds (maxLen : Nat) : Holds maxLen (Device.new M) [] :=
  ⟨rfl, decode_wait (by rw [scan.eq_def])⟩

/-- **C62** If the port delivers bytes `n` times and then none, `update` hands the packets of the bytes
held before and of the new bytes to the callback, each once, in the order of the stream, and returns
`Ok`; the bytes of an incomplete frame at the end are kept.  If the port fails instead, the error is
returned, after the same calls of the callback.  A panic of the callback is passed on. -/
theorem c62_update (hM : D.maxPayloadLen + 8 + 1240 ≤ M / 2) (port : Port E) (cb : P → σ → R σ)
    {dev : Device M} {b : Bytes} (hb : Holds D.maxPayloadLen dev b) (n : Nat)
    (hc : ∀ i < n, Some1240 (port (dev.reads + i))) (s : σ) :
    match (handed D (decode D.maxPayloadLen (b ++ received port dev.reads n)).1).foldlM
        (fun s p => cb p s) s with
    | .error q => dev.update M D port cb s = some (.error q)
    | .ok s' => ∃ dev', Holds D.maxPayloadLen dev'
          (decode D.maxPayloadLen (b ++ received port dev.reads n)).2 ∧
        dev'.reads = dev.reads + n + 1 ∧
        (Quiet (port (dev.reads + n)) →
          dev.update M D port cb s = some (.ok (.ok (), s', dev'))) ∧
        (∀ e, port (dev.reads + n) = .failed e →
          dev.update M D port cb s = some (.ok (.error e, s', dev'))) := by
  have h := Device.update_eq (D := D) cb hM port n hb hc s
  split at h
  · rename_i q hq
    simp only [hq]
    exact h
  · rename_i s' hs
    simp only [hs]
    obtain ⟨dev', h1, h2, h3⟩ := h
    refine ⟨⟨dev'.reads + 1, dev'.parser⟩, h3, by simp only; omega, ?_, ?_⟩
    · intro hq
      rw [h1, Device.update.eq_def, h2]
      rcases hq with hq | hq <;> rw [hq] <;> rfl
    · intro e he
      rw [h1, Device.update.eq_def, h2, he]
      rfl

/-- A port that delivers an ACK-ACK frame in two pieces, then NAV-PVT's beginning, then nothing. -/
def demoPort : Port Unit
  | 0 => .data [0x24, 0xb5, 0x62, 5, 1, 2]
  | 1 => .data [0, 6, 0, 0x0e, 0x37, 0xb5, 0x62, 1]
  | _ => .timedOut

example : (∀ i < 2, Some1240 (demoPort ((Device.new 65535).reads + i))) ∧
    Quiet (demoPort ((Device.new 65535).reads + 2)) ∧
    crateDispatch.maxPayloadLen + 8 + 1240 ≤ 65535 / 2 ∧
    received demoPort 0 2 = [0x24] ++ frame 5 1 [6, 0] ++ [0xb5, 0x62, 1] := by
  refine ⟨fun i hi => ?_, .inl rfl, by rw [crate_max]; decide, by decide⟩
  match i, hi with
  | 0, _ => exact ⟨_, rfl, by decide, by decide⟩
  | 1, _ => exact ⟨_, rfl, by decide, by decide⟩

/-- **C62** Conversely, whenever `update` returns: the port has delivered bytes in some number `n` of
reads and then none (`Ok`) or failed (its error is returned), and the callback was called as in
`c62_update`. -/
theorem c62_returns (hM : D.maxPayloadLen + 8 + 1240 ≤ M / 2) (port : Port E) (cb : P → σ → R σ)
    {dev : Device M} {b : Bytes} (hb : Holds D.maxPayloadLen dev b) {s s' : σ} {res dev'}
    (h : dev.update M D port cb s = some (.ok (res, s', dev'))) :
    ∃ n, dev'.reads = dev.reads + n + 1 ∧ (∀ i < n, Some1240 (port (dev.reads + i))) ∧
      ((res = .ok () ∧ Quiet (port (dev.reads + n))) ∨
        ∃ e, res = .error e ∧ port (dev.reads + n) = .failed e) ∧
      (handed D (decode D.maxPayloadLen (b ++ received port dev.reads n)).1).foldlM
        (fun s p => cb p s) s = .ok s' ∧
      Holds D.maxPayloadLen dev' (decode D.maxPayloadLen (b ++ received port dev.reads n)).2 := by
  -- the first read that delivers no bytes exists, because the loop ends
  have key := Device.update.partial_correctness M D port cb
    (motive := fun dev s r => ∀ b, Holds D.maxPayloadLen dev b → ∀ res s' dev', r = .ok (res, s', dev') →
      ∃ n, (∀ i < n, Some1240 (port (dev.reads + i))) ∧
        ((∃ e, port (dev.reads + n) = .failed e) ∨ Quiet (port (dev.reads + n)))) (by
    intro upd ih dev s r hr b hb res s' dev' he
    match hp : port dev.reads with
    | .failed e => exact ⟨0, by simp, .inl ⟨e, hp⟩⟩
    | .timedOut => exact ⟨0, by simp, .inr (.inl hp)⟩
    | .data [] => exact ⟨0, by simp, .inr (.inr hp)⟩
    | .data (x :: xs) =>
      rw [hp] at hr
      simp only [Device.readPort] at hr
      rw [if_neg (by simp)] at hr
      split at hr
      · cases hr; cases he
      · rename_i hlen
        have hlen : (x :: xs).length ≤ 1240 := by unfold Device.localBufLen at hlen; omega
        have hh := Device.handleChunk_eq (D := D) (p := dev.parser) (c := x :: xs) cb (by omega)
          (hb.1 ▸ hb.2) s
        split at hh
        · rw [hh] at hr; cases hr; cases he
        · obtain ⟨p', e1, e2⟩ := hh
          rw [e1] at hr
          obtain ⟨n, h1, h2⟩ := ih _ _ _ hr _ ⟨rfl, by
            show decode _ p'.buf.bytes = _
            rw [e2]; exact (decode_rest _ _).1⟩ _ _ _ he
          simp only at h1 h2
          refine ⟨n + 1, ?_, ?_⟩
          · intro i hi
            match i, hi with
            | 0, _ => exact ⟨_, hp, by simp, hlen⟩
            | i + 1, hi =>
              rw [show dev.reads + (i + 1) = dev.reads + 1 + i by omega]
              exact h1 i (by omega)
          · rw [show dev.reads + (n + 1) = dev.reads + 1 + n by omega]
            exact h2)
  obtain ⟨n, h1, h2⟩ := key dev s _ h b hb _ _ _ rfl
  have hu := c62_update (D := D) hM port cb hb n h1 s
  split at hu
  · rw [hu] at h; cases h
  · rename_i s1 hs1
    obtain ⟨d1, k1, k2, k3, k4⟩ := hu
    rcases h2 with ⟨e, he⟩ | hq
    · rw [k4 e he] at h
      cases h
      exact ⟨n, k2, h1, .inr ⟨e, rfl, he⟩, hs1, k1⟩
    · rw [k3 hq] at h
      cases h
      exact ⟨n, k2, h1, .inl ⟨rfl, hq⟩, hs1, k1⟩

/-- **C62** `update` only panics if the callback panics on one of the packets, or if a read returns more
bytes than were asked for. -/
theorem c62_panics (hM : D.maxPayloadLen + 8 + 1240 ≤ M / 2) (port : Port E) (cb : P → σ → R σ)
    {dev : Device M} {b : Bytes} (hb : Holds D.maxPayloadLen dev b) {s : σ} {q : Panic}
    (h : dev.update M D port cb s = some (.error q)) :
    ∃ n, (∀ i < n, Some1240 (port (dev.reads + i))) ∧
      ((handed D (decode D.maxPayloadLen (b ++ received port dev.reads n)).1).foldlM
        (fun s p => cb p s) s = .error q ∨
      ∃ bs, port (dev.reads + n) = .data bs ∧ 1240 < bs.length) := by
  have key := Device.update.partial_correctness M D port cb
    (motive := fun dev s r => ∀ b, Holds D.maxPayloadLen dev b → ∀ q, r = .error q →
      ∃ n, (∀ i < n, Some1240 (port (dev.reads + i))) ∧
      ((handed D (decode D.maxPayloadLen (b ++ received port dev.reads n)).1).foldlM
        (fun s p => cb p s) s = .error q ∨
      ∃ bs, port (dev.reads + n) = .data bs ∧ 1240 < bs.length)) (by
    intro upd ih dev s r hr b hb q he
    match hp : port dev.reads with
    | .failed e => rw [hp] at hr; cases hr; cases he
    | .timedOut => rw [hp] at hr; cases hr; cases he
    | .data bs =>
      rw [hp] at hr
      simp only [Device.readPort] at hr
      split at hr
      · cases hr; cases he
      · rename_i h0
        split at hr
        · rename_i hlen
          exact ⟨0, by simp, .inr ⟨bs, hp, hlen⟩⟩
        · rename_i hlen
          have hlen : bs.length ≤ 1240 := by unfold Device.localBufLen at hlen; omega
          have hs0 : Some1240 (port dev.reads) := ⟨bs, hp, by omega, hlen⟩
          obtain ⟨rfl, hb2⟩ := hb
          have hh := Device.handleChunk_eq (D := D) (p := dev.parser) (c := bs) cb (by omega) hb2 s
          split at hh
          · rename_i q' hq'
            rw [hh] at hr; cases hr; cases he
            refine ⟨1, ?_, .inl ?_⟩
            · intro i hi
              rw [show i = 0 by omega]
              exact hs0
            · simp only [received, hp, portBytes, List.append_nil]
              exact hq'
          · rename_i s1 hs1
            obtain ⟨p', e1, e2⟩ := hh
            rw [e1] at hr
            obtain ⟨n, k1, k2⟩ := ih _ _ _ hr _ ⟨rfl, by
              show decode _ p'.buf.bytes = _
              rw [e2]; exact (decode_rest _ _).1⟩ _ he
            simp only at k1 k2
            refine ⟨n + 1, ?_, ?_⟩
            · intro i hi
              match i, hi with
              | 0, _ => exact hs0
              | i + 1, hi =>
                rw [show dev.reads + (i + 1) = dev.reads + 1 + i by omega]
                exact k1 i (by omega)
            · rcases k2 with k2 | ⟨bs, k2, k3⟩
              · refine .inl ?_
                simp only [received, hp, portBytes]
                rw [← List.append_assoc, decode_append]
                have happ : ∀ x y, handed D (x ++ y) = handed D x ++ handed D y := by
                  intro x y; simp [handed]
                rw [e2] at k2
                simp only [happ, List.foldlM_append, hs1, Except.ok_bind]
                exact k2
              · refine .inr ⟨bs, ?_, k3⟩
                rw [show dev.reads + (n + 1) = dev.reads + 1 + n by omega]
                exact k2)
  exact key dev s _ h b hb q rfl

theorem foldlM_error {cb : P → σ → R σ} {q : Panic} : ∀ (l : List P) (s : σ),
    l.foldlM (fun s p => cb p s) s = .error q → ∃ p ∈ l, ∃ s, cb p s = .error q
  | [], _, h => by cases h
  | p :: l, s, h => by
    rw [List.foldlM_cons] at h
    cases hc : cb p s with
    | error q' => rw [hc] at h; cases h; exact ⟨p, by simp, s, hc⟩
    | ok s' =>
      rw [hc] at h
      obtain ⟨p', h1, h2⟩ := foldlM_error l s' h
      exact ⟨p', by simp [h1], h2⟩

theorem some1240_not_quiet {r : PortRead E} (h : Some1240 r) : ¬ Quiet r ∧ ∀ e, r ≠ .failed e := by
  obtain ⟨bs, rfl, h1, -⟩ := h
  refine ⟨?_, fun e => nofun⟩
  rintro (h | h)
  · cases h
  · cases h; simp at h1

/-- **C62** As long as every read delivers bytes (and the callback does not panic) `update` does not
return. -/
theorem c62_endless (hM : D.maxPayloadLen + 8 + 1240 ≤ M / 2) (port : Port E) (cb : P → σ → R σ)
    {dev : Device M} {b : Bytes} (hb : Holds D.maxPayloadLen dev b)
    (hc : ∀ i, Some1240 (port (dev.reads + i))) (hcb : ∀ p s q, cb p s ≠ .error q) (s : σ) :
    dev.update M D port cb s = none := by
  match h : dev.update M D port cb s with
  | none => rfl
  | some (.error q) =>
    obtain ⟨i, -, h1 | ⟨bs, h1, h2⟩⟩ := c62_panics (D := D) hM port cb hb h
    · obtain ⟨p, -, s, hp⟩ := foldlM_error _ _ h1
      exact absurd hp (hcb p s q)
    · obtain ⟨bs', h3, -, h4⟩ := hc i
      rw [h1] at h3
      cases h3
      omega
  | some (.ok (res, s', dev')) =>
    obtain ⟨n, -, -, h3, -⟩ := c62_returns (D := D) hM port cb hb h
    have hn := some1240_not_quiet (hc n)
    rcases h3 with ⟨-, h3⟩ | ⟨e, -, h3⟩
    · exact absurd h3 hn.1
    · exact absurd h3 (hn.2 e)

example : ∀ i, Some1240 ((fun _ => .data [0x55] : Port Unit) ((Device.new 65535).reads + i)) :=
  fun _ => ⟨_, rfl, by decide, by decide⟩

theorem received_append (port : Port E) (i m n : Nat) :
    received port i (m + n) = received port i m ++ received port (i + m) n := by
  induction m generalizing i with
  | zero => rw [Nat.zero_add]; rfl
  | succ m ih =>
    rw [show m + 1 + n = (m + n) + 1 by omega]
    simp only [received]
    rw [ih, List.append_assoc, show i + 1 + m = i + (m + 1) by omega]

theorem received_last {port : Port E} {i n : Nat}
    (h : Quiet (port (i + n)) ∨ ∃ e, port (i + n) = .failed e) :
    received port i (n + 1) = received port i n := by
  rw [received_append]
  have : portBytes (port (i + n)) = [] := by
    rcases h with (h | h) | ⟨e, h⟩ <;> rw [h] <;> rfl
  simp [received, this]

/-- **C62** Over any number of calls of `update`, with pauses and errors of the port in between, the
callback gets the packets of the whole stream: each once, in order, none lost at the boundaries of
reads or calls. -/
theorem c62_calls (hM : D.maxPayloadLen + 8 + 1240 ≤ M / 2) (port : Port E) (cb : P → σ → R σ)
    (k : Nat) {dev : Device M} {b : Bytes} (hb : Holds D.maxPayloadLen dev b) {s s' : σ} {ress dev'}
    (h : Device.updates M D port cb k dev s = some (.ok (ress, s', dev'))) :
    ∃ n, dev'.reads = dev.reads + n ∧ ress.length = k ∧
      (handed D (decode D.maxPayloadLen (b ++ received port dev.reads n)).1).foldlM
        (fun s p => cb p s) s = .ok s' ∧
      Holds D.maxPayloadLen dev' (decode D.maxPayloadLen (b ++ received port dev.reads n)).2 := by
  induction k generalizing dev b s ress with
  | zero =>
    simp only [Device.updates, Option.some.injEq, Except.ok.injEq, Prod.mk.injEq] at h
    obtain ⟨rfl, rfl, rfl⟩ := h
    refine ⟨0, rfl, rfl, ?_, ?_⟩ <;> simp only [received, List.append_nil, hb.2]
    · rfl
    · exact hb
  | succ k ih =>
    simp only [Device.updates] at h
    match hu : dev.update M D port cb s with
    | none => rw [hu] at h; cases h
    | some (.error q) => rw [hu] at h; cases h
    | some (.ok (res, s1, d1)) =>
      rw [hu] at h
      simp only at h
      match hus : Device.updates M D port cb k d1 s1 with
      | none => rw [hus] at h; cases h
      | some (.error q) => rw [hus] at h; cases h
      | some (.ok (ress1, s2, d2)) =>
        rw [hus] at h
        simp only [Option.some.injEq, Except.ok.injEq, Prod.mk.injEq] at h
        obtain ⟨rfl, rfl, rfl⟩ := h
        obtain ⟨n, h1, h2, h3, h4, h5⟩ := c62_returns (D := D) hM port cb hb hu
        obtain ⟨m, i1, i2, i3, i4⟩ := ih h5 hus
        have hr : received port dev.reads (n + 1) = received port dev.reads n :=
          received_last (h3.imp (fun h => h.2) (fun ⟨e, _, h⟩ => ⟨e, h⟩))
        rw [h1, show dev.reads + n + 1 = dev.reads + (n + 1) by omega] at i3 i4 i1
        have hd := decode_append D.maxPayloadLen (b ++ received port dev.reads n)
          (received port (dev.reads + (n + 1)) m)
        refine ⟨n + 1 + m, by omega, by simp [i2], ?_, ?_⟩
        · rw [received_append, hr, ← List.append_assoc, hd]
          have happ : ∀ x y, handed D (x ++ y) = handed D x ++ handed D y := by
            intro x y; simp [handed]
          simp only [happ, List.foldlM_append, h4, Except.ok_bind]
          exact i3
        · rw [received_append, hr, ← List.append_assoc, hd]
          exact i4

/-! ## C63 Waiting for an acknowledgement -/

/-- The stream `s` contains a complete ACK-ACK frame for the type `t`. -/
def Acked (t : PackDesc) (s : Bytes) : Prop :=
  Ev.packet 0x05 0x01 [t.cls, t.id] ∈ (decode crateDispatch.maxPayloadLen s).1

theorem ackCallback_handed (t : PackDesc) (ev : Ev) (found : Bool) :
    match (report crateDispatch.matchPacket ev).toOption with
    | none => ev ≠ .packet 0x05 0x01 [t.cls, t.id]
    | some p => Device.ackCallback t p found =
        .ok (found || decide (ev = .packet 0x05 0x01 [t.cls, t.id])) := by
  cases ev with
  | badChecksum a b => exact nofun
  | tooLarge n => exact nofun
  | packet c i payload =>
    obtain ⟨p, h1, h2, h3, h4⟩ := c23_dispatch c i payload
    have h1' := h1
    rw [crateDispatch_eq] at h1
    simp only [Except.ok.injEq] at h1
    simp only [report, h1, Except.toOption]
    have other : p ≠ .known ackAck_ payload →
        Ev.packet c i payload ≠ .packet 0x05 0x01 [t.cls, t.id] := by
      intro hne he
      injection he with e1 e2 e3
      subst e1 e2 e3
      have := ((c45_delivered [t.cls, t.id]).1).mpr ⟨_, _, rfl⟩
      rw [h1'] at this
      simp only [Except.ok.injEq] at this
      exact hne this
    cases p with
    | unknown q c' i' =>
      have := other nofun
      simp [Device.ackCallback, this]
    | known d q =>
      simp only [PacketRef.payload] at h3
      subst h3
      by_cases hd : d = ackAck_
      · subst hd
        obtain ⟨-, hv⟩ := delivered h1'
        obtain ⟨x, y, rfl⟩ := (ack_valid (.inl rfl) q).mp hv
        obtain ⟨g1, g2⟩ := ack_getU8 (d := ackAck_) (.inl rfl) x y
        obtain ⟨-, -, -, e1, e2, -⟩ := h4
        have e1 : (0x05 : UInt8) = c := e1
        have e2 : (0x01 : UInt8) = i := e2
        subst e1 e2
        simp only [Device.ackCallback, if_true, g1, g2, Except.ok_bind]
        by_cases hx : x = t.cls
        · by_cases hy : y = t.id
          · simp [hx, hy, pure, Except.pure]
          · simp [hx, hy, pure, Except.pure]
        · simp [hx, pure, Except.pure]
      · have := other (by simp [hd])
        simp [Device.ackCallback, hd, this]

theorem ack_fold (t : PackDesc) (evs : List Ev) (found : Bool) :
    (handed crateDispatch evs).foldlM (fun s p => Device.ackCallback t p s) found =
      .ok (found || decide (Ev.packet 0x05 0x01 [t.cls, t.id] ∈ evs)) := by
  induction evs generalizing found with
  | nil => simp [handed, pure, Except.pure]
  | cons ev evs ih =>
    have h := ackCallback_handed t ev found
    unfold handed at ih ⊢
    rw [List.filterMap_cons]
    split at h
    · rename_i hn
      simp only [hn, ih]
      have : ¬ Ev.packet 0x05 0x01 [t.cls, t.id] = ev := fun hc => h hc.symm
      simp [this]
    · rename_i p hp
      simp only [hp, List.foldlM_cons, h, Except.ok_bind, ih]
      simp only [List.mem_cons, eq_comm (a := ev), Bool.decide_or, Bool.or_assoc]

theorem acked_append {t : PackDesc} {s u : Bytes} :
    Acked t (s ++ u) ↔ Acked t s ∨ Acked t ((decode crateDispatch.maxPayloadLen s).2 ++ u) := by
  unfold Acked
  rw [decode_append]
  simp

theorem no_failed_of_quiet {r : PortRead E} (h : Quiet r) (e : E) : r ≠ .failed e := by
  rcases h with rfl | rfl <;> nofun

/-- **C63** When `wait_for_ack::<T>` returns, the last read has found the line quiet or failed; `Ok` is
returned if the stream up to there contains an ACK-ACK frame for `T`, an error if the port failed with
it.  At no quiet moment before had the acknowledgement been there, and there was no failure before. -/
theorem c63_returns (hM : 8176 + 8 + 1240 ≤ M / 2) (port : Port E) (t : PackDesc) {dev : Device M}
    {b : Bytes} (hb : Holds crateDispatch.maxPayloadLen dev b) {res dev'}
    (h : dev.waitForAck M port t = some (.ok (res, dev'))) :
    ∃ n, dev'.reads = dev.reads + n + 1 ∧
      ((res = .ok () ∧ Quiet (port (dev.reads + n)) ∧ Acked t (b ++ received port dev.reads n)) ∨
        ∃ e, res = .error e ∧ port (dev.reads + n) = .failed e) ∧
      (∀ i < n, Some1240 (port (dev.reads + i)) ∨
        Quiet (port (dev.reads + i)) ∧ ¬ Acked t (b ++ received port dev.reads i)) ∧
      Holds crateDispatch.maxPayloadLen dev'
        (decode crateDispatch.maxPayloadLen (b ++ received port dev.reads n)).2 := by
  have hM' : crateDispatch.maxPayloadLen + 8 + 1240 ≤ M / 2 := by rw [crate_max]; exact hM
  have key := Device.waitLoop.partial_correctness M port t
    (motive := fun dev found r => ∀ b, Holds crateDispatch.maxPayloadLen dev b →
      ∀ res dev', r = .ok (res, dev') →
      (found = true → res = .ok () ∧ dev' = dev) ∧ (found = false →
      ∃ n, dev'.reads = dev.reads + n + 1 ∧
      ((res = .ok () ∧ Quiet (port (dev.reads + n)) ∧ Acked t (b ++ received port dev.reads n)) ∨
        ∃ e, res = .error e ∧ port (dev.reads + n) = .failed e) ∧
      (∀ i < n, Some1240 (port (dev.reads + i)) ∨
        Quiet (port (dev.reads + i)) ∧ ¬ Acked t (b ++ received port dev.reads i)) ∧
      Holds crateDispatch.maxPayloadLen dev'
        (decode crateDispatch.maxPayloadLen (b ++ received port dev.reads n)).2)) (by
    intro wl ih dev found r hr b hb res dev' he
    cases found with
    | true =>
      cases hr; cases he
      exact ⟨fun _ => ⟨rfl, rfl⟩, nofun⟩
    | false =>
      refine ⟨nofun, fun _ => ?_⟩
      simp only [Bool.false_eq_true, if_false] at hr
      match hu : dev.update M crateDispatch port (Device.ackCallback t) false with
      | none => rw [hu] at hr; cases hr
      | some (.error q) => rw [hu] at hr; cases hr; cases he
      | some (.ok (res1, found1, d1)) =>
        rw [hu] at hr
        obtain ⟨n, h1, h2, h3, h4, h5⟩ := c62_returns hM' port _ hb hu
        rw [ack_fold] at h4
        simp only [Bool.false_or, Except.ok.injEq] at h4
        rcases h3 with ⟨rfl, h3⟩ | ⟨e, rfl, h3⟩
        · simp only at hr
          obtain ⟨g1, g2⟩ := ih _ _ _ hr _ h5 _ _ he
          by_cases ha : Acked t (b ++ received port dev.reads n)
          · obtain ⟨rfl, rfl⟩ := g1 (h4 ▸ decide_eq_true ha)
            exact ⟨n, h1, .inl ⟨rfl, h3, ha⟩, fun i hi => .inl (h2 i hi), h5⟩
          · obtain ⟨m, i1, i2, i3, i4⟩ := g2 (h4 ▸ decide_eq_false ha)
            rw [h1, show dev.reads + n + 1 = dev.reads + (n + 1) by omega] at i1 i2 i3 i4
            have hlast := received_last (port := port) (.inl h3)
            have hrec : ∀ k, received port dev.reads (n + 1 + k) =
                received port dev.reads n ++ received port (dev.reads + (n + 1)) k := by
              intro k; rw [received_append, hlast]
            have hack : ∀ k, Acked t ((decode crateDispatch.maxPayloadLen
                (b ++ received port dev.reads n)).2 ++ received port (dev.reads + (n + 1)) k) ↔
                Acked t (b ++ received port dev.reads (n + 1 + k)) := by
              intro k
              rw [hrec, ← List.append_assoc, acked_append (s := b ++ received port dev.reads n)]
              simp [ha]
            have hidx : ∀ k, dev.reads + (n + 1) + k = dev.reads + (n + 1 + k) := by
              intro k; omega
            refine ⟨n + 1 + m, by omega, ?_, ?_, ?_⟩
            · rw [hack, hidx] at i2
              exact i2
            · intro i hi
              by_cases h6 : i < n
              · exact .inl (h2 i h6)
              · by_cases h7 : i = n
                · subst h7
                  exact .inr ⟨h3, ha⟩
                · have := i3 (i - (n + 1)) (by omega)
                  rw [hack, hidx, show n + 1 + (i - (n + 1)) = i by omega] at this
                  exact this
            · rw [hrec, ← List.append_assoc, decode_append]
              exact i4
        · simp only [Option.some.injEq] at hr
          subst hr
          cases he
          exact ⟨n, h1, .inr ⟨e, rfl, h3⟩, fun i hi => .inl (h2 i hi), h5⟩)
  exact (key dev false _ h b hb _ _ rfl).2 rfl

/-- **C63** `wait_for_ack` panics only if a read returns more bytes than were asked for. -/
theorem c63_no_panic (hM : 8176 + 8 + 1240 ≤ M / 2) (port : Port E) (t : PackDesc) {dev : Device M}
    {b : Bytes} (hb : Holds crateDispatch.maxPayloadLen dev b)
    (hr : ∀ i bs, port (dev.reads + i) = .data bs → bs.length ≤ 1240) (q : Panic) :
    dev.waitForAck M port t ≠ some (.error q) := by
  have hM' : crateDispatch.maxPayloadLen + 8 + 1240 ≤ M / 2 := by rw [crate_max]; exact hM
  intro h
  refine Device.waitLoop.partial_correctness M port t
    (motive := fun dev found r => ∀ b, Holds crateDispatch.maxPayloadLen dev b →
      (∀ i bs, port (dev.reads + i) = .data bs → bs.length ≤ 1240) → r ≠ .error q) ?_
      dev false _ h b hb hr rfl
  intro wl ih dev found r hr b hb hlen he
  subst he
  split at hr
  · cases hr
  · match hu : dev.update M crateDispatch port (Device.ackCallback t) found with
    | none => rw [hu] at hr; cases hr
    | some (.error q') =>
      obtain ⟨n, -, h1 | ⟨bs, h1, h2⟩⟩ := c62_panics hM' port _ hb hu
      · rw [ack_fold] at h1; cases h1
      · have := hlen n bs h1; omega
    | some (.ok (.error e, found1, d1)) => rw [hu] at hr; cases hr
    | some (.ok (.ok (), found1, d1)) =>
      rw [hu] at hr
      obtain ⟨n, h1, h2, h3, h4, h5⟩ := c62_returns hM' port _ hb hu
      refine ih _ _ _ hr _ h5 ?_ rfl
      intro i bs hp
      rw [h1] at hp
      exact hlen (n + 1 + i) bs (by rw [← hp]; congr 1; omega)

/-- **C63** `wait_for_ack::<T>` returns at the latest when the line is quiet after an ACK-ACK frame for
`T` has arrived, or when the port fails. -/
theorem c63_ends (hM : 8176 + 8 + 1240 ≤ M / 2) (port : Port E) (t : PackDesc) {dev : Device M}
    {b : Bytes} (hb : Holds crateDispatch.maxPayloadLen dev b) (n : Nat)
    (hr : ∀ i < n, Some1240 (port (dev.reads + i)) ∨ Quiet (port (dev.reads + i)))
    (hn : (Quiet (port (dev.reads + n)) ∧ Acked t (b ++ received port dev.reads n)) ∨
      ∃ e, port (dev.reads + n) = .failed e) :
    ∃ res dev', dev.waitForAck M port t = some (.ok (res, dev')) ∧
      dev'.reads ≤ dev.reads + n + 1 := by
  have hM' : crateDispatch.maxPayloadLen + 8 + 1240 ≤ M / 2 := by rw [crate_max]; exact hM
  unfold Device.waitForAck
  induction n using Nat.strongRecOn generalizing dev b with
  | ind n ih =>
    -- the first read that is not a chunk
    have hex : ∃ k ≤ n, (∀ i < k, Some1240 (port (dev.reads + i))) ∧
        (Quiet (port (dev.reads + k)) ∨ (k = n ∧ ∃ e, port (dev.reads + n) = .failed e)) := by
      have hstep : ∀ k ≤ n, (∀ i < k, Some1240 (port (dev.reads + i))) ∨
          ∃ j ≤ n, (∀ i < j, Some1240 (port (dev.reads + i))) ∧ Quiet (port (dev.reads + j)) := by
        intro k
        induction k with
        | zero => intro _; exact .inl (by simp)
        | succ k ihk =>
          intro hk
          rcases ihk (by omega) with h1 | h1
          · rcases hr k (by omega) with h2 | h2
            · refine .inl fun i hi => ?_
              rcases Nat.lt_succ_iff_lt_or_eq.mp hi with h | rfl
              · exact h1 i h
              · exact h2
            · exact .inr ⟨k, by omega, h1, h2⟩
          · exact .inr h1
      rcases hstep n (Nat.le_refl n) with h1 | ⟨j, h1, h2, h3⟩
      · rcases hn with ⟨h2, -⟩ | h2
        · exact ⟨n, Nat.le_refl n, h1, .inl h2⟩
        · exact ⟨n, Nat.le_refl n, h1, .inr ⟨rfl, h2⟩⟩
      · exact ⟨j, h1, h2, .inl h3⟩
    obtain ⟨k, hk, h1, h2⟩ := hex
    have hu := c62_update (D := crateDispatch) hM' port (Device.ackCallback t) hb k h1 false
    simp only [ack_fold, Bool.false_or] at hu
    obtain ⟨d1, u1, u2, u3, u4⟩ := hu
    rw [Device.waitLoop.eq_def]
    simp only [Bool.false_eq_true, if_false]
    rcases h2 with h2 | ⟨rfl, e, h2⟩
    · rw [u3 h2]
      simp only
      by_cases ha : Acked t (b ++ received port dev.reads k)
      · rw [decide_eq_true (p := Ev.packet 5 1 [t.cls, t.id] ∈ _) ha, Device.waitLoop.eq_def]
        exact ⟨_, _, rfl, by omega⟩
      · rw [decide_eq_false (p := Ev.packet 5 1 [t.cls, t.id] ∈ _) ha]
        have hkn : k ≠ n := by
          rintro rfl
          rcases hn with ⟨-, h3⟩ | ⟨e, h3⟩
          · exact ha h3
          · exact no_failed_of_quiet h2 e h3
        have hlast := received_last (port := port) (.inl h2)
        have hidx : ∀ i, d1.reads + i = dev.reads + (k + 1 + i) := by intro i; omega
        obtain ⟨res, dev', g1, g2⟩ := ih (n - (k + 1)) (by omega) (dev := d1) u1
          (by
            intro i hi
            rw [hidx]
            exact hr _ (by omega))
          (by
            rw [hidx, show k + 1 + (n - (k + 1)) = n by omega]
            refine hn.imp_left fun ⟨h3, h4⟩ => ⟨h3, ?_⟩
            have hrec : received port dev.reads n =
                received port dev.reads k ++ received port d1.reads (n - (k + 1)) := by
              rw [show d1.reads = dev.reads + (k + 1) by omega]
              conv => lhs; rw [show n = k + 1 + (n - (k + 1)) by omega]
              rw [received_append, hlast]
            rw [hrec, ← List.append_assoc, acked_append] at h4
            exact h4.resolve_left ha)
        exact ⟨res, dev', g1, by omega⟩
    · rw [u4 e h2]
      exact ⟨_, _, rfl, by omega⟩

/-- The acknowledgement of CFG-PRT arrives. -/
example : Holds crateDispatch.maxPayloadLen (Device.new 65535) [] ∧
    (∀ i < 2, Some1240 (demoPort ((Device.new 65535).reads + i))) ∧
    Quiet (demoPort ((Device.new 65535).reads + 2)) ∧
    Acked cfgPrtUart_ ([] ++ received demoPort (Device.new 65535).reads 2) := by
  refine ⟨new_holds _, fun i hi => ?_, .inl rfl, ?_⟩
  · match i, hi with
    | 0, _ => exact ⟨_, rfl, by decide, by decide⟩
    | 1, _ => exact ⟨_, rfl, by decide, by decide⟩
  · have h := decode_frame (maxLen := crateDispatch.maxPayloadLen) (sep := [0x24]) (c := 5) (i := 1)
      (p := [6, 0]) (rest := [0xb5, 0x62, 1]) (by decide) (by rw [crate_max]; decide) (by decide)
    have e : [] ++ received demoPort (Device.new 65535).reads 2 =
        [0x24] ++ frame 5 1 [6, 0] ++ [0xb5, 0x62, 1] := by decide
    unfold Acked
    rw [e, h]
    simp only [List.mem_cons]
    exact .inl rfl

/-- **C63** If the acknowledgement never comes and the port does not fail, `wait_for_ack` does not
return, whatever else is received. -/
theorem c63_never (hM : 8176 + 8 + 1240 ≤ M / 2) (port : Port E) (t : PackDesc) {dev : Device M}
    {b : Bytes} (hb : Holds crateDispatch.maxPayloadLen dev b)
    (hr : ∀ i, Some1240 (port (dev.reads + i)) ∨ Quiet (port (dev.reads + i)))
    (hn : ∀ n, Quiet (port (dev.reads + n)) → ¬ Acked t (b ++ received port dev.reads n)) :
    dev.waitForAck M port t = none := by
  match h : dev.waitForAck M port t with
  | none => rfl
  | some (.error q) =>
    refine absurd h (c63_no_panic hM port t hb ?_ q)
    intro i bs hp
    rcases hr i with ⟨bs', h1, -, h2⟩ | h1 | h1 <;> rw [hp] at h1 <;> cases h1
    · exact h2
    · simp
  | some (.ok (res, dev')) =>
    obtain ⟨n, -, h1, -⟩ := c63_returns hM port t hb h
    rcases h1 with ⟨-, h1, h2⟩ | ⟨e, -, h1⟩
    · exact absurd h2 (hn n h1)
    · rcases hr n with h2 | h2
      · exact absurd h1 ((some1240_not_quiet h2).2 e)
      · exact absurd h1 (no_failed_of_quiet h2 e)

/-- **C63** In particular a refusal (ACK-NAK) does not end the waiting: if the device answers with it
and is silent afterwards, `wait_for_ack` does not return. -/
theorem c63_refused (hM : 8176 + 8 + 1240 ≤ M / 2) (t : PackDesc) :
    (Device.new M).waitForAck M (E := E)
      (fun | 0 => .data (frame 0x05 0x00 [t.cls, t.id]) | _ => .timedOut) t = none := by
  have hlen : ∀ x y : UInt8, (frame 0x05 0x00 [x, y]).length = 10 := by
    intro x y; simp [frame, body]
  refine c63_never hM _ t (new_holds _) ?_ ?_
  · intro i
    show Some1240 _ ∨ Quiet _
    rw [show (Device.new M).reads + i = i by simp [Device.new]]
    match i with
    | 0 => exact .inl ⟨_, rfl, by rw [hlen]; decide, by rw [hlen]; decide⟩
    | i + 1 => exact .inr (.inl rfl)
  · intro n _
    generalize hport : (fun | 0 => .data (frame 0x05 0x00 [t.cls, t.id]) | _ => .timedOut : Port E) = port
    have h0 : ∀ k i, received port (i + 1) k = [] := by
      intro k
      induction k with
      | zero => intro i; rfl
      | succ k ih =>
        intro i
        rw [received, ih (i + 1), ← hport]
        rfl
    have hd := decode_frame (maxLen := crateDispatch.maxPayloadLen) (sep := []) (c := 5) (i := 0)
      (p := [t.cls, t.id]) (rest := []) (by simp) (by rw [crate_max]; simp) (by simp)
    have hd0 : decode crateDispatch.maxPayloadLen [] = ([], []) := decode_wait (by rw [scan.eq_def])
    have hres : ∀ k, received port (Device.new M).reads k = [] ∨
        received port (Device.new M).reads k = frame 5 0 [t.cls, t.id] := by
      intro k
      cases k with
      | zero => exact .inl rfl
      | succ k =>
        refine .inr ?_
        show received port 0 (k + 1) = _
        rw [received, h0, ← hport]
        simp [portBytes]
    unfold Acked
    rcases hres n with h | h
    · rw [h]; simp [hd0]
    · rw [h]
      simp only [List.nil_append, List.append_nil] at hd ⊢
      rw [hd, hd0]
      simp

/-- **C63** Nor does it return while the line is busy, even if the acknowledgement has arrived. -/
theorem c63_busy_line (hM : 8176 + 8 + 1240 ≤ M / 2) (port : Port E) (t : PackDesc) {dev : Device M}
    {b : Bytes} (hb : Holds crateDispatch.maxPayloadLen dev b)
    (hr : ∀ i, Some1240 (port (dev.reads + i))) : dev.waitForAck M port t = none :=
  c63_never hM port t hb (fun i => .inl (hr i)) fun n hq => absurd hq (some1240_not_quiet (hr n)).1

end Ublox.Props
