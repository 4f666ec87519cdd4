import Verif.Lemmas.Among
import Verif.Props.EndToEnd

/-!
# C81: messages arrive whatever other messages are sent in between
-/

namespace Ublox.Props
open Spec Spec.Protocol Gen Ublox.Parser

variable {P : Type} {M : Nat} {D : Dispatch P}

/-- C81, growable buffer: the frames asked about are among the packets returned, in their order. -/
theorem c81_vec_wanted (hM : D.maxPayloadLen + 8 ≤ M) (hm : D.maxPayloadLen ≤ 65535)
    (h : List (Bytes × Nat)) (hc : ∀ x ∈ h, x.1.length + D.maxPayloadLen + 8 ≤ M / 2)
    (fs : List (UInt8 × UInt8 × Bytes))
    (hj : Among D.maxPayloadLen (D.maxPayloadLen + 8) (fedBytes h) fs)
    {rss q} (hq : session M D (vecParser M) h = some (.ok (rss, q))) (he : Exhausted rss) :
    ∃ evs : List Ev, results rss = evs.map (report D.matchPacket) ∧ fs.Sublist (packets evs) := by
  obtain ⟨evss, q', h1, h2, h3⟩ := vec_session (vecHolds_of_exhausted hM hc hq he) hM
  rw [hq] at h1
  simp only [Option.some.injEq, Except.ok.injEq, Prod.mk.injEq] at h1
  obtain ⟨rfl, rfl⟩ := h1
  have hlen : ∀ f ∈ fs, f.2.2.length ≤ D.maxPayloadLen := among_payload hj
  have hA := hist_aheadAmong (t := []) (out := []) (fs := fs) (n := D.maxPayloadLen + 8) hm
    (fun f hf => by have := hlen f hf; omega) h3 (.inl (Nat.le_refl _))
    (by rw [List.append_nil]; exact aheadAmong_of_among hj)
  refine ⟨reports evss.flatten, results_answers evss, ?_⟩
  rcases hA with ⟨fs1, fs2, _, _, _, h5⟩ | h4
  · exfalso
    have h6 := among_length h5
    rw [List.append_nil] at h6
    have h7 := hist_rest h3 (exhausted_answers he)
    simp only [List.length_nil] at h7
    omega
  · exact h4

/-- C81, fixed buffer: the frames asked about have to fit, the others do not. -/
theorem c81_flb_wanted (hM : D.maxPayloadLen + 8 ≤ M) (hm : D.maxPayloadLen ≤ 65535)
    (backing : Bytes) (hb : backing.length ≤ M / 2) (h5 : 5 ≤ backing.length)
    (h : List (Bytes × Nat)) (hs : Slices M h) (n : Nat)
    (fs : List (UInt8 × UInt8 × Bytes)) (hfit : ∀ f ∈ fs, f.2.2.length + 7 ≤ backing.length)
    (hj : Among D.maxPayloadLen n (fedBytes h) fs)
    (hn : D.maxPayloadLen + 8 ≤ n ∨ backing.length < n)
    {rss q} (hq : session M D (flbParser M backing) h = some (.ok (rss, q))) (he : Exhausted rss) :
    ∃ evs : List Ev, results rss = evs.map (report D.matchPacket) ∧ fs.Sublist (packets evs) := by
  obtain ⟨evss, q', h1, _, _, h3⟩ := flb_session (D := D) hb hs hM
  rw [hq] at h1
  simp only [Option.some.injEq, Except.ok.injEq, Prod.mk.injEq] at h1
  obtain ⟨rfl, rfl⟩ := h1
  have hA := hist_aheadAmong (t := []) (out := []) (fs := fs) (n := n) hm
    hfit h3 (.inr ⟨h5, exhausted_answers he⟩)
    (by rw [List.append_nil]; exact aheadAmong_of_among hj)
  refine ⟨reports evss.flatten, results_answers evss, ?_⟩
  rcases hA with ⟨fs1, fs2, _, _, _, h5'⟩ | h4
  · exfalso
    have h6 := among_length h5'
    rw [List.append_nil] at h6
    have h7 := hist_rest h3 (exhausted_answers he)
    simp only [List.length_nil] at h7
    omega
  · exact h4

/-- The reference decoder finds them. -/
theorem decode_among {maxLen : Nat} (hm : maxLen ≤ 65535) {s : Bytes}
    {fs : List (UInt8 × UInt8 × Bytes)} (hj : Among maxLen (maxLen + 8) s fs) :
    fs.Sublist (packets (decode maxLen s).1) := by
  obtain ⟨evs, r, h1, h2⟩ := run_exists (cap := maxLen + 7) (Nat.le_refl _) s
  obtain ⟨h3, h4⟩ := run_exhausted_decode (fits_of_le (Nat.le_refl _) s) h1 h2
  have hA := run_aheadAmong (t := []) (out := []) (fs := fs) (n := maxLen + 8) hm
    (fun f hf => by have := among_payload hj f hf; omega) h1
    (by rw [List.append_nil]; exact aheadAmong_of_among hj)
  rw [h3]
  rcases hA with ⟨fs1, fs2, _, _, _, h5⟩ | h6
  · exfalso
    have h6 := among_length h5
    have h7 := (decode_rest maxLen s).2
    rw [h3] at h7
    simp only [List.append_nil] at h6 h7
    omega
  · exact h6

theorem handed_sent_among {xs : List (Message × Bytes)} (h : ∀ x ∈ xs, Sent x) {evs : List Ev}
    (he : (xs.map onWire).Sublist (packets evs)) :
    ∃ ps : List PacketRef, ps.Sublist (handed crateDispatch evs) ∧ List.Forall₂ Arrives xs ps := by
  obtain ⟨ps, h1, h2⟩ := sent_all h
  refine ⟨ps, ?_, h2⟩
  rw [handed_packets]
  have h3 := congrArg (List.filterMap Except.toOption) h1
  rw [List.filterMap_map, List.filterMap_map] at h3
  have h5 := h3.trans (by rw [show (Except.toOption ∘ (Except.ok (ε := ParserError)) :
    PacketRef → Option PacketRef) = some from rfl, List.filterMap_some])
  rw [← h5]
  have h6 := he.filterMap fun f : UInt8 × UInt8 × Bytes =>
    (crateDispatch.matchPacket f.1 f.2.1 f.2.2).toOption
  rw [List.filterMap_map] at h6
  exact h6

/-- C81, growable buffer, messages of the interface description. -/
theorem c81_vec {M : Nat} (hM : 8176 + 8 ≤ M) (h : List (Bytes × Nat))
    (hc : ∀ x ∈ h, x.1.length + 8176 + 8 ≤ M / 2) {xs : List (Message × Bytes)}
    (hx : ∀ x ∈ xs, Sent x) (hj : Among 8176 (8176 + 8) (fedBytes h) (xs.map onWire))
    {rss q} (hq : session M crateDispatch (vecParser M) h = some (.ok (rss, q)))
    (he : Exhausted rss) :
    ∃ ps : List PacketRef, ps.Sublist (packetsAmong (results rss)) ∧ List.Forall₂ Arrives xs ps := by
  obtain ⟨evs, h1, h2⟩ := c81_vec_wanted (D := crateDispatch)
    (by rw [crate_max]; omega) (by rw [crate_max]; omega) h (by rw [crate_max]; exact hc) _
    (by rw [crate_max]; exact hj) hq he
  obtain ⟨ps, h3, h4⟩ := handed_sent_among hx h2
  refine ⟨ps, ?_, h4⟩
  rw [h1]
  unfold packetsAmong
  unfold handed at h3
  rw [List.filterMap_map]
  exact h3

/-- C81, fixed buffer in which these messages fit, messages of the interface description. -/
theorem c81_flb {M : Nat} (hM : 8176 + 8 ≤ M) (backing : Bytes) (hb : backing.length ≤ M / 2)
    (h5 : 5 ≤ backing.length) (h : List (Bytes × Nat)) (hs : Slices M h)
    {xs : List (Message × Bytes)} (hx : ∀ x ∈ xs, Sent x ∧ x.2.length + 7 ≤ backing.length) {n : Nat}
    (hj : Among 8176 n (fedBytes h) (xs.map onWire)) (hn : 8176 + 8 ≤ n ∨ backing.length < n)
    {rss q} (hq : session M crateDispatch (flbParser M backing) h = some (.ok (rss, q)))
    (he : Exhausted rss) :
    ∃ ps : List PacketRef, ps.Sublist (packetsAmong (results rss)) ∧ List.Forall₂ Arrives xs ps := by
  obtain ⟨evs, h1, h2⟩ := c81_flb_wanted (D := crateDispatch)
    (by rw [crate_max]; omega) (by rw [crate_max]; omega) backing hb h5 h hs n (xs.map onWire)
    (fun f hf => by obtain ⟨y, hy, rfl⟩ := List.mem_map.mp hf; exact (hx y hy).2)
    (by rw [crate_max]; exact hj) (by rw [crate_max]; exact hn) hq he
  obtain ⟨ps, h3, h4⟩ := handed_sent_among (fun x hx' => (hx x hx').1) h2
  refine ⟨ps, ?_, h4⟩
  rw [h1]
  unfold packetsAmong
  unfold handed at h3
  rw [List.filterMap_map]
  exact h3

/-- C81, the example program: the callback is called for these messages, in order. -/
theorem c81_updates {E σ : Type} {M : Nat} (hM : 8176 + 8 + 1240 ≤ M / 2) (port : Port E)
    (cb : PacketRef → σ → R σ) (k : Nat) {dev : Device M}
    (hb : Holds crateDispatch.maxPayloadLen dev []) {s s' : σ} {ress dev'}
    (h : Device.updates M crateDispatch port cb k dev s = some (.ok (ress, s', dev')))
    {xs : List (Message × Bytes)} (hx : ∀ x ∈ xs, Sent x)
    (hj : ∀ n, dev'.reads = dev.reads + n →
      Among 8176 (8176 + 8) (received port dev.reads n) (xs.map onWire)) :
    ∃ all ps : List PacketRef, all.foldlM (fun s p => cb p s) s = .ok s' ∧ ps.Sublist all ∧
      List.Forall₂ Arrives xs ps := by
  obtain ⟨n, h1, -, h2, -⟩ := c62_calls (by rw [crate_max]; exact hM) port cb k hb h
  have hj := hj n h1
  rw [List.nil_append, crate_max] at h2
  obtain ⟨ps, h4, h5⟩ := handed_sent_among hx (decode_among (by omega) hj)
  exact ⟨_, ps, h2, h4, h5⟩

theorem frame_length_unique {c i c' i' : UInt8} {p p' r r' : Bytes} (hp : p.length ≤ 65535)
    (hp' : p'.length ≤ 65535) (h : frame c i p ++ r = frame c' i' p' ++ r') :
    p.length = p'.length := by
  rw [frame_eq_header, frame_eq_header] at h
  simp only [header, List.cons.injEq, true_and] at h
  rw [← announced_ofNat hp, ← announced_ofNat hp', h.2.2.1, h.2.2.2.1]

/-- A frame of 100 bytes, which a buffer of 36 bytes cannot hold, before the one asked about. -/
example (tail : Bytes) (ht : 37 ≤ tail.length) :
    Among 8176 37 ((frame 0x0a 0x04 (List.replicate 100 0) ++ [0x0d, 0x0a]) ++
      frame 0x01 0x02 (List.replicate 28 0) ++ tail) [(0x01, 0x02, List.replicate 28 0)] := by
  refine .cons (by decide) ?_ (.nil ht)
  intro k hk c i p rest hp he
  have hl : (frame 0x0a 0x04 (List.replicate 100 0) ++ [0x0d, 0x0a] : Bytes).length = 110 := by
    decide +kernel
  have h2 : (frame c i p ++ rest).take 2 = [0xb5, 0x62] := rfl
  have h3 : ∀ k < 110, k ≠ 0 → (((frame 0x0a 0x04 (List.replicate 100 0) ++ [0x0d, 0x0a]) ++
      frame 0x01 0x02 (List.replicate 28 0) : Bytes).drop k).take 2 ≠ [0xb5, 0x62] := by
    decide +kernel
  rw [hl] at hk ⊢
  by_cases h0 : k = 0
  · subst h0
    rw [List.drop_zero, List.append_assoc, List.append_assoc] at he
    have h4 := frame_length_unique (by decide +kernel) (by omega) he
    rw [List.length_replicate] at h4
    simp only [frame, body, List.length_append, List.length_cons, List.length_nil]
    omega
  · exfalso
    rw [← he, List.drop_append_of_le_length (by simp [frame, body]; omega),
      List.take_append_of_le_length (by simp [frame, body]; omega)] at h2
    exact h3 k hk h0 h2

end Ublox.Props
