import Verif.Props.Junk

/-!
# C85: how long a packet can be held back
-/

namespace Ublox.Props

open Spec Ublox.Parser UnderlyingBuffer

variable {P : Type} {M : Nat} {D : Dispatch P}

theorem hist_append {B maxLen cap : Nat} {b b' : Bytes} {h1 h2 : List (Bytes × Nat)}
    {evss : List (List (Option Ev))} (hh : Hist B maxLen cap b (h1 ++ h2) evss b') :
    ∃ e1 e2 m, evss = e1 ++ e2 ∧ e1.length = h1.length ∧ Hist B maxLen cap b h1 e1 m ∧
      Hist B maxLen cap m h2 e2 b' := by
  induction h1 generalizing b evss with
  | nil => exact ⟨[], evss, b, rfl, rfl, .nil _, hh⟩
  | cons x h1 ih =>
    cases hh with
    | cons hB hrun hn hrest =>
      obtain ⟨e1, e2, m, rfl, hl, k1, k2⟩ := ih hrest
      exact ⟨_ :: e1, e2, m, rfl, by simp [hl], .cons hB hrun hn k1, k2⟩

theorem hist_suffix {B maxLen cap : Nat} {b b' : Bytes} {h : List (Bytes × Nat)}
    {evss : List (List (Option Ev))} (hh : Hist B maxLen cap b h evss b') (hc : 5 ≤ cap)
    (hk : ∀ evs ∈ evss, none ∈ evs) : b' <:+ b ++ fed h := by
  induction hh with
  | nil b => simp [fed]
  | @cons b c n evs s rest evss b' hB hrun hn _ ih =>
    obtain ⟨_, _, _, _, _, _, _, e5⟩ := run_exhausted hrun (hk _ (by simp))
    have := (step_none_length e5).1
    have h1 := ih fun e he => hk e (by simp [he])
    rw [List.take_of_length_le (by omega)] at h1
    have h2 : s <:+ b ++ c := (run_suffix hrun).trans (trim_suffix _)
    obtain ⟨g, hg⟩ := h2
    have : b ++ fed ((c, n) :: rest) = g ++ (s ++ fed rest) := by
      have e : fed ((c, n) :: rest) = c ++ fed rest := rfl
      rw [e, ← List.append_assoc, ← hg, List.append_assoc]
    rw [this]
    exact h1.trans (List.suffix_append _ _)

theorem suffix_drop {s t : Bytes} {k : Nat} (h : s <:+ t) (hl : s.length ≤ k) :
    s <:+ t.drop (t.length - k) := by
  obtain ⟨g, rfl⟩ := h
  rw [List.drop_append_of_le_length (by simp; omega)]
  exact List.suffix_append _ _

/-- The packets that come out later lie in the last bytes and in what is fed later. -/
theorem hist_later {B maxLen cap : Nat} {b' : Bytes} {h1 h2 : List (Bytes × Nat)}
    {evss : List (List (Option Ev))} (hh : Hist B maxLen cap [] (h1 ++ h2) evss b') (hc : 5 ≤ cap)
    (hk : ∀ evs ∈ evss, none ∈ evs) :
    Embeds maxLen ((fed h1).drop ((fed h1).length - min cap (maxLen + 7)) ++ fed h2)
      (packets (reports (evss.drop h1.length).flatten)) := by
  obtain ⟨e1, e2, m, rfl, hl, k1, k2⟩ := hist_append hh
  rw [← hl, List.drop_left]
  have x1 : ∀ evs ∈ e1, none ∈ evs := fun e he => hk e (by simp [he])
  have x2 : ∀ evs ∈ e2, none ∈ evs := fun e he => hk e (by simp [he])
  have hr := hist_rest k1 x1
  have hs := hist_suffix k1 hc x1
  rw [List.nil_append] at hs
  have hd := suffix_drop hs (k := min cap (maxLen + 7)) (by simpa using hr)
  have he := hist_embeds k2 (.inr ⟨hc, x2⟩)
  obtain ⟨g, hg⟩ := hd
  rw [← hg, List.append_assoc]
  exact embeds_prefix g he

/-- **C85**, growable buffer: whatever was fed, a packet that is returned later than the chunks `h1`
begins in the last `maxPayloadLen + 7` bytes of them or behind them: everything before has been
settled. -/
theorem c85_vec_delay (hM : D.maxPayloadLen + 8 ≤ M) (h1 h2 : List (Bytes × Nat))
    (hv : VecHolds M D (h1 ++ h2)) {rss q}
    (hq : session M D (vecParser M) (h1 ++ h2) = some (.ok (rss, q))) (he : Exhausted rss) :
    ∃ evs : List Ev, results (rss.drop h1.length) = evs.map (report D.matchPacket) ∧
      Embeds D.maxPayloadLen
        ((fedBytes h1).drop ((fedBytes h1).length - (D.maxPayloadLen + 7)) ++ fedBytes h2)
        (packets evs) := by
  obtain ⟨evss, q', e1, e2, e3⟩ := vec_session hv hM
  rw [hq] at e1
  simp only [Option.some.injEq, Except.ok.injEq, Prod.mk.injEq] at e1
  obtain ⟨rfl, rfl⟩ := e1
  have h := hist_later e3 (by omega) (exhausted_answers he)
  rw [Nat.min_eq_right (by omega)] at h
  refine ⟨reports (evss.drop h1.length).flatten, ?_, h⟩
  rw [← List.map_drop]
  exact results_answers _

/-- **C85**, fixed buffer of at least 5 bytes: a packet is held back by at most as many bytes as the
buffer has room for. -/
theorem c85_flb_delay (hM : D.maxPayloadLen + 8 ≤ M) (backing : Bytes)
    (hb : backing.length ≤ M / 2) (h5 : 5 ≤ backing.length) (h1 h2 : List (Bytes × Nat))
    (hs : Slices M (h1 ++ h2)) {rss q}
    (hq : session M D (flbParser M backing) (h1 ++ h2) = some (.ok (rss, q)))
    (he : Exhausted rss) :
    ∃ evs : List Ev, results (rss.drop h1.length) = evs.map (report D.matchPacket) ∧
      Embeds D.maxPayloadLen
        ((fedBytes h1).drop ((fedBytes h1).length - min backing.length (D.maxPayloadLen + 7)) ++
          fedBytes h2)
        (packets evs) := by
  obtain ⟨evss, q', e1, _, _, e3⟩ := flb_session (D := D) hb hs hM
  rw [hq] at e1
  simp only [Option.some.injEq, Except.ok.injEq, Prod.mk.injEq] at e1
  obtain ⟨rfl, rfl⟩ := e1
  have h := hist_later e3 h5 (exhausted_answers he)
  refine ⟨reports (evss.drop h1.length).flatten, ?_, h⟩
  rw [← List.map_drop]
  exact results_answers _

/-- **C85**, the bound is reached: behind a header that announces the longest payload nothing is
returned until `maxPayloadLen + 8` bytes have arrived, whatever they are (whole frames, for
instance). -/
theorem c85_delay_reached (hM : D.maxPayloadLen + 8 ≤ M / 2) (c i lo hi : UInt8) (t : Bytes)
    (hl : lo.toNat + 256 * hi.toNat = D.maxPayloadLen)
    (ht : ([0xb5, 0x62, c, i, lo, hi] ++ t).length < D.maxPayloadLen + 8) (n : Nat) :
    ∃ q, feed M D (vecParser M) ([0xb5, 0x62, c, i, lo, hi] ++ t) n =
      some (.ok (List.replicate n none, q)) ∧ q.buf.bytes = [0xb5, 0x62, c, i, lo, hi] ++ t := by
  have hM' : D.maxPayloadLen + 8 ≤ M := by omega
  have hcap : maxCapacity (vecParser M).buf = M := rfl
  obtain ⟨evs, q, s, f1, f2, f3, f4, f5, f6⟩ := feed_eq (D := D) (p := vecParser M)
    (chunk := [0xb5, 0x62, c, i, lo, hi] ++ t) (Nat.zero_le _) (by omega)
    (show ([] : Bytes).length + _ ≤ M / 2 by
      rw [List.length_nil]; omega) hM' n
  have hc0 : LawfulBuffer.contents M (vecParser M).buf = [] := rfl
  rw [hc0, hcap, List.nil_append] at f5
  have htrim : trim ([0xb5, 0x62, c, i, lo, hi] ++ t) = [0xb5, 0x62, c, i, lo, hi] ++ t := by
    simp [trim]
  rw [htrim] at f5
  have hscan : scan D.maxPayloadLen ([0xb5, 0x62, c, i, lo, hi] ++ t) = .cand c i lo hi t := by
    simp [scan, announced, hl]
  have hann : announced lo hi = D.maxPayloadLen := hl
  simp only [List.length_append, List.length_cons, List.length_nil] at ht
  have hrun : ∀ evs s, Run D.maxPayloadLen M ([0xb5, 0x62, c, i, lo, hi] ++ t) evs s →
      evs = List.replicate evs.length none ∧ s = [0xb5, 0x62, c, i, lo, hi] ++ t := by
    intro evs
    induction evs with
    | nil => intro s h; cases h; exact ⟨rfl, rfl⟩
    | cons ev evs ih =>
      intro s h
      cases h with
      | cons h1 h2 =>
        cases h1 with
        | wait h => rw [hscan] at h; cases h
        | incomplete h =>
          rw [hscan] at h
          cases h
          obtain ⟨g1, g2⟩ := ih s h2
          exact ⟨by rw [List.length_cons, List.replicate_succ, ← g1], g2⟩
        | noRoom h h3 h4 =>
          rw [hscan] at h
          cases h
          simp only [header, List.length_cons] at h4
          omega
        | noRoomComplete h h3 h4 => rw [hscan] at h; cases h; omega
        | packet h h3 =>
          rw [hscan] at h
          cases h
          have := congrArg List.length h3
          simp only [List.length_drop, List.length_cons] at this
          omega
        | bad h h3 =>
          rw [hscan] at h
          cases h
          have := congrArg List.length h3
          simp only [List.length_drop, List.length_cons] at this
          omega
  obtain ⟨g1, rfl⟩ := hrun evs s f5
  refine ⟨q, ?_, ?_⟩
  · rw [f1, g1, f4]
    simp [answers]
  · have : q.buf.bytes = ([0xb5, 0x62, c, i, lo, hi] ++ t).take M := f6
    rw [this, List.take_of_length_le (by simp; omega)]

/-- The longest announcement of the crate, `1f f0`, followed by a whole frame. -/
example : (0xf0 : UInt8).toNat + 256 * (0x1f : UInt8).toNat = 8176 ∧
    ([0xb5, 0x62, 1, 2, 0xf0, 0x1f] ++ frame 5 1 [6, 1]).length < 8176 + 8 ∧
    Exhausted [[some 1, none], [none]] := by
  refine ⟨by decide, by decide, ?_⟩
  unfold Exhausted
  decide

end Ublox.Props
