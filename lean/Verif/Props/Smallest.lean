import Verif.Props.Among

/-!
# C80: which capacity a fixed buffer needs
-/

namespace Ublox.Props
open Spec Spec.Protocol Gen Ublox.Parser

theorem mem_packets_reports {evs : List (Option Ev)} {f : UInt8 × UInt8 × Bytes}
    (h : f ∈ packets (reports evs)) : (frame f.1 f.2.1 f.2.2).Sublist (framesOf evs) := by
  unfold framesOf
  exact List.sublist_flatten_of_mem (List.mem_map_of_mem h)

theorem hist_frame_bound {B maxLen cap k : Nat} {b b' : Bytes} {h : List (Bytes × Nat)}
    {evss : List (List (Option Ev))} (hh : Hist B maxLen cap b h evss b') (hb : b.length ≤ cap)
    (hk : ∀ x ∈ h, x.1.length ≤ k) :
    ∀ f ∈ packets (reports evss.flatten), f.2.2.length + 8 ≤ cap + k := by
  induction hh with
  | nil b => intro f hf; simp [reports, packets] at hf
  | @cons b c n evs s rest evss b' hB hrun hn _ ih =>
    intro f hf
    have e : packets (reports (evs :: evss).flatten) =
        packets (reports evs) ++ packets (reports evss.flatten) := by
      rw [← packets_append]; simp [reports]
    rw [e] at hf
    rcases List.mem_append.mp hf with hf | hf
    · have h1 := (mem_packets_reports hf).trans
        ((List.sublist_append_left _ s).trans (run_sublist hrun).2)
      have h2 := h1.length_le
      have h3 : (trim (b ++ c)).length ≤ (b ++ c).length := by
        unfold trim
        split
        · exact (List.dropWhile_sublist _).length_le
        · exact Nat.le_refl _
      have h4 := hk (c, n) (by simp)
      have h5 : (frame f.1 f.2.1 f.2.2).length = f.2.2.length + 8 := by simp [frame, body]
      rw [List.length_append] at h3
      simp only at h4
      omega
    · exact ih (by rw [List.length_take]; omega) (fun x hx => hk x (by simp [hx])) f hf

/-- C80: a packet that is returned was not longer, as a frame, than the buffer and one of the pieces
together. -/
theorem c80_bound {P : Type} {M : Nat} {D : Dispatch P} (hM : D.maxPayloadLen + 8 ≤ M)
    (backing : Bytes) (hb : backing.length ≤ M / 2) (h : List (Bytes × Nat)) (hs : Slices M h)
    {k : Nat} (hk : ∀ x ∈ h, x.1.length ≤ k) {rss q}
    (hq : session M D (flbParser M backing) h = some (.ok (rss, q))) :
    ∃ evs : List Ev, results rss = evs.map (report D.matchPacket) ∧
      ∀ f ∈ packets evs, (frame f.1 f.2.1 f.2.2).length ≤ backing.length + k := by
  obtain ⟨evss, q', h1, _, _, h3⟩ := flb_session (D := D) hb hs hM
  rw [hq] at h1
  simp only [Option.some.injEq, Except.ok.injEq, Prod.mk.injEq] at h1
  obtain ⟨rfl, rfl⟩ := h1
  refine ⟨reports evss.flatten, results_answers evss, fun f hf => ?_⟩
  have := hist_frame_bound h3 (Nat.zero_le _) hk f hf
  simp only [frame, body, List.length_append, List.length_cons, List.length_nil]
  omega

/-- C80: a frame arrives through a fixed buffer however it is cut into pieces exactly if the buffer
has room for the frame without its last byte. -/
theorem c80_capacity {M : Nat} (hM : 8176 + 8 ≤ M) (backing : Bytes) (hb : backing.length ≤ M / 2)
    (h5 : 5 ≤ backing.length) (c i : UInt8) (payload : Bytes) (hp : payload.length ≤ 8176) :
    (∀ (h : List (Bytes × Nat)), Slices M h → fedBytes h = frame c i payload →
      ∀ rss q, session M crateDispatch (flbParser M backing) h = some (.ok (rss, q)) →
        Exhausted rss → results rss = [crateDispatch.matchPacket c i payload]) ↔
    payload.length + 8 ≤ backing.length + 1 := by
  have hmax : crateDispatch.maxPayloadLen = 8176 := crate_max
  have hl : (frame c i payload).length = payload.length + 8 := by simp [frame, body]
  constructor
  · intro hall
    have hM1 : 1 ≤ M / 2 := by omega
    obtain ⟨rss, q, h1, h2⟩ := c02_flb_exhaustion_reachable (D := crateDispatch) (M := M)
      (by rw [hmax]; exact hM) backing hb ((frame c i payload).map fun x => [x]) (by
        intro x hx
        obtain ⟨y, -, rfl⟩ := List.mem_map.mp hx
        exact hM1)
    have hs : ∀ x ∈ ((frame c i payload).map fun x => [x]).map
        (fun c => (c, backing.length + c.length + 1)), x.1.length ≤ 1 := by
      intro x hx
      obtain ⟨y, hy, rfl⟩ := List.mem_map.mp hx
      obtain ⟨z, -, rfl⟩ := List.mem_map.mp hy
      exact Nat.le_refl _
    have hsl : Slices M _ := fun x hx => Nat.le_trans (hs x hx) hM1
    have hr := hall _ hsl (by
      unfold fedBytes
      rw [List.map_map]
      show (List.map (fun c : Bytes => c) _).flatten = _
      rw [List.map_id']
      induction frame c i payload with
      | nil => rfl
      | cons x l ih => simp only [List.map_cons, List.flatten_cons, ih]; rfl) rss q h1 h2
    obtain ⟨evs, k1, k2⟩ := c80_bound (D := crateDispatch) (by rw [hmax]; exact hM) backing hb _ hsl hs
      h1
    rw [hr] at k1
    match evs, k1 with
    | [ev], k1 =>
      simp only [List.map_cons, List.map_nil, List.cons.injEq, and_true] at k1
      have hd := delivered_match c i payload
      cases ev with
      | packet c' i' p' =>
        have hd' := delivered_match c' i' p'
        obtain ⟨r, hr1, hr2⟩ := hd
        obtain ⟨r', hr1', hr2'⟩ := hd'
        have k3 := k2 (c', i', p') (by simp [packets])
        have hrr : r = r' := by
          rw [hr1] at k1
          exact Except.ok.inj (k1.trans hr1')
        have hpp : p' = payload := hr2'.2.symm.trans (hrr ▸ hr2.2)
        rw [hpp] at k3
        simp only [frame, body, List.length_append, List.length_cons, List.length_nil] at k3
        omega
      | badChecksum a b =>
        obtain ⟨r, hr1, -⟩ := hd
        rw [hr1] at k1
        cases k1
      | tooLarge n =>
        obtain ⟨r, hr1, -⟩ := hd
        rw [hr1] at k1
        cases k1
    | [], k1 => simp at k1
    | _ :: _ :: _, k1 => simp at k1
  · intro hcap h hs hfed rss q hq he
    have := c04_flb_clean_stream (D := crateDispatch) (M := M) (by rw [hmax]; exact hM)
      (by rw [hmax]; decide) backing hb h5 [([], c, i, payload)] [] (by simp) (by simp)
      (by simp [hmax]; exact hp) (by simp; omega) h (by rw [hfed]; simp [cleanStream]) hs hq he
    exact this.1

theorem posLlh_len : ∀ m ∈ interface, m.packet = "NavPosLlh" → m.len = .fixed 28 := by
  decide +kernel

/-- C80: the smallest buffer that the documentation recommends, 36 bytes, is large enough for
NAV-POSLLH: every such message arrives, with the position that was sent, whatever other bytes and
messages (also longer ones) are in between and however the stream is cut into pieces.  More than 36
bytes have to follow the last one (a header in front of it may ask for that many). -/
theorem c80_smallest {M : Nat} (hM : 8176 + 8 ≤ M) (backing : Bytes) (hb : backing.length = 36)
    (h : List (Bytes × Nat)) (hs : Slices M h) {xs : List (Message × Bytes)}
    (hx : ∀ x ∈ xs, Sent x ∧ x.1.packet = "NavPosLlh")
    (hj : Among 8176 37 (fedBytes h) (xs.map onWire))
    {rss q} (hq : session M crateDispatch (flbParser M backing) h = some (.ok (rss, q)))
    (he : Exhausted rss) :
    ∃ ps : List PacketRef, ps.Sublist (packetsAmong (results rss)) ∧ List.Forall₂ Arrives xs ps := by
  refine c81_flb hM backing (by omega) (by omega) h hs (fun x hm => ⟨(hx x hm).1, ?_⟩) hj
    (.inr (by omega)) hq he
  have h1 := (hx x hm).1.2.2.len
  rw [posLlh_len _ (hx x hm).1.1 (hx x hm).2] at h1
  have h2 : x.2.length = 28 := h1
  omega

/-- Such a message. -/
example : Sent (⟨"NavPosLlh", 0x01, 0x02, .fixed 28,
    [num 0 .U4 "itow", scaled 4 .I4 "lon_degrees" e7, scaled 8 .I4 "lat_degrees" e7,
      scaled 12 .I4 "height_meters" e3, scaled 16 .I4 "height_msl" e3,
      scaled 20 .U4 "h_ack" e3, scaled 24 .U4 "v_acc" e3]⟩, List.replicate 28 1) := by
  refine ⟨by decide +kernel, by decide +kernel, rfl, ?_, ?_, ?_⟩
  · intro x hx hn
    have h : ∀ x ∈ closedFields, x.1 ≠ "NavPosLlh" := by decide +kernel
    exact absurd hn (h x hx)
  · exact fun h => absurd h (by decide)
  · exact fun h => absurd h (by decide)

/-- 35 bytes are enough and 34 are not. -/
example : (∀ h : List (Bytes × Nat), Slices 65535 h → fedBytes h = frame 1 2 (List.replicate 28 0) →
    ∀ rss q, session 65535 crateDispatch (flbParser 65535 (List.replicate 35 0)) h =
      some (.ok (rss, q)) → Exhausted rss →
      results rss = [crateDispatch.matchPacket 1 2 (List.replicate 28 0)]) ∧
    ¬ ∀ h : List (Bytes × Nat), Slices 65535 h → fedBytes h = frame 1 2 (List.replicate 28 0) →
    ∀ rss q, session 65535 crateDispatch (flbParser 65535 (List.replicate 34 0)) h =
      some (.ok (rss, q)) → Exhausted rss →
      results rss = [crateDispatch.matchPacket 1 2 (List.replicate 28 0)] := by
  rw [c80_capacity (by decide) _ (by decide) (by decide) _ _ _ (by decide),
    c80_capacity (by decide) _ (by decide) (by decide) _ _ _ (by decide)]
  decide

end Ublox.Props
