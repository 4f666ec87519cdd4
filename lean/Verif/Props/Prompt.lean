import Verif.Props.Junk

/-!
# C78: a packet comes out as soon as its last byte has arrived
-/

namespace Ublox.Props

open Spec Parser

variable {P : Type} {M : Nat} {D : Dispatch P}

/-- Where the `j`-th frame of a stream ends. -/
def endOf (items : List (Bytes × UInt8 × UInt8 × Bytes)) (j : Nat) : Nat :=
  (cleanStream (items.take j) []).length

theorem endOf_zero (items) : endOf items 0 = 0 := by simp [endOf, cleanStream]

theorem endOf_succ (sep c i p items) (j : Nat) :
    endOf ((sep, c, i, p) :: items) (j + 1) = sep.length + (frame c i p).length + endOf items j := by
  simp [endOf, cleanStream]; omega

/-- A frame that is not complete. -/
theorem scan_part {maxLen : Nat} {c i : UInt8} {p : Bytes} (hp : p.length ≤ maxLen)
    (hp' : p.length ≤ 65535) {k : Nat} (h0 : 0 < k) (hk : k < (frame c i p).length) :
    decode maxLen ((frame c i p).take k) = ([], (frame c i p).take k) ∧
    ∀ n, Announces maxLen ((frame c i p).take k) n → n = p.length := by
  have hw : ∀ s : Bytes, scan maxLen s = .wait s → decode maxLen s = ([], s) ∧
      ∀ n, Announces maxLen s n → n = p.length := by
    intro s hs
    refine ⟨decode_wait hs, fun n hn => ?_⟩
    cases hn with
    | here h => rw [hs] at h; cases h
    | afterPacket h => rw [hs] at h; cases h
    | afterBad h => rw [hs] at h; cases h
  have hl : (frame c i p).length = p.length + 8 := by simp [frame, body]
  match k, h0 with
  | 1, _ => exact hw _ (by simp [frame, body, scan])
  | 2, _ => exact hw _ (by simp [frame, body, scan])
  | 3, _ => exact hw _ (by simp [frame, body, scan])
  | 4, _ => exact hw _ (by simp [frame, body, scan])
  | 5, _ => exact hw _ (by simp [frame, body, scan])
  | k + 6, _ =>
    have e : (frame c i p).take (k + 6) = header c i (UInt8.ofNat (p.length % 256))
        (UInt8.ofNat (p.length / 256)) ((p ++ [ckA (body c i p), ckB (body c i p)]).take k) := by
      simp [frame, body, header]
    have hs : scan maxLen ((frame c i p).take (k + 6)) = .cand c i (UInt8.ofNat (p.length % 256))
        (UInt8.ofNat (p.length / 256)) ((p ++ [ckA (body c i p), ckB (body c i p)]).take k) := by
      rw [e, scan_header, announced_ofNat hp', if_pos hp]
    have hlt : ((p ++ [ckA (body c i p), ckB (body c i p)]).take k).length <
        announced (UInt8.ofNat (p.length % 256)) (UInt8.ofNat (p.length / 256)) + 2 := by
      rw [announced_ofNat hp', List.length_take]; omega
    refine ⟨by rw [decode_incomplete hs hlt, e], fun n hn => ?_⟩
    cases hn with
    | here h => rw [hs] at h; cases h; exact announced_ofNat hp'
    | afterPacket h h2 =>
      rw [hs] at h; cases h
      have := after_length h2
      omega
    | afterBad h h2 =>
      rw [hs] at h; cases h
      have := after_length h2
      omega

theorem noSync_prefix {s t : Bytes} (h : NoSync t) (hp : s <+: t) : NoSync s := by
  obtain ⟨u, rfl⟩ := hp
  intro a b hab
  exact h a (b ++ u) (by rw [hab]; simp)

theorem decode_noSync_part {maxLen : Nat} {s : Bytes} (h : NoSync s) :
    (decode maxLen s).1 = [] ∧ (decode maxLen s).2.length ≤ s.length ∧ ∀ n, ¬ Announces maxLen s n := by
  have hs := scan_noSync_last (maxLen := maxLen) h
  rw [decode_wait hs]
  refine ⟨rfl, ?_, fun n hn => ?_⟩
  · exact (scan_length_le maxLen s).1 _ hs
  · cases hn with
    | here h => rw [hs] at h; cases h
    | afterPacket h => rw [hs] at h; cases h
    | afterBad h => rw [hs] at h; cases h

theorem announces_sep {maxLen : Nat} {s t : Bytes} {n : Nat} (h : scan maxLen s = scan maxLen t)
    (hn : Announces maxLen s n) : Announces maxLen t n := by
  cases hn with
  | here h1 => exact .here (h ▸ h1)
  | afterPacket h1 h2 h3 h4 h5 => exact .afterPacket (h ▸ h1) h2 h3 h4 h5
  | afterBad h1 h2 h3 h4 => exact .afterBad (h ▸ h1) h2 h3 h4

/-- Decoding the beginning of a stream of frames. -/
theorem decode_prefix {maxLen : Nat} (hm : maxLen ≤ 65535)
    {items : List (Bytes × UInt8 × UInt8 × Bytes)} {last : Bytes}
    (hs : ∀ x ∈ items, NoSync x.1) (hl : NoSync last)
    (hp : ∀ x ∈ items, x.2.2.2.length ≤ maxLen) {s : Bytes} (h : s <+: cleanStream items last) :
    ∃ n ≤ items.length,
      (decode maxLen s).1 = (items.take n).map (fun x => .packet x.2.1 x.2.2.1 x.2.2.2) ∧
      (∀ j ≤ items.length, endOf items j ≤ s.length ↔ j ≤ n) ∧
      (decode maxLen s).2.length ≤ s.length - endOf items n ∧
      (∀ x, items[n]? = some x → endOf items n + x.1.length < s.length →
        (decode maxLen s).2 = s.drop (endOf items n + x.1.length)) ∧
      ∀ k, Announces maxLen s k → ∃ x ∈ items, k = x.2.2.2.length := by
  induction items generalizing s with
  | nil =>
    obtain ⟨h1, h2, h3⟩ := decode_noSync_part (maxLen := maxLen) (noSync_prefix hl h)
    refine ⟨0, Nat.le_refl _, by simpa using h1, ?_, by simpa [endOf_zero] using h2, by simp,
      fun k hk => absurd hk (h3 k)⟩
    intro j hj
    simp only [List.length_nil, Nat.le_zero] at hj
    subst hj
    simp [endOf_zero]
  | cons x items ih =>
    obtain ⟨sep, c, i, p⟩ := x
    have hp0 : p.length ≤ maxLen := hp (sep, c, i, p) (by simp)
    have hs0 : NoSync sep := hs (sep, c, i, p) (by simp)
    have hp' : p.length ≤ 65535 := by omega
    have hhead : ∀ k, 0 < k → ((frame c i p).take k).head? = some 0xb5 := by
      intro k hk
      obtain ⟨k, rfl⟩ : ∃ m, k = m + 1 := ⟨k - 1, by omega⟩
      rfl
    rw [cleanStream] at h
    by_cases hlen : (sep ++ frame c i p).length ≤ s.length
    · obtain ⟨s', rfl⟩ := List.prefix_of_prefix_length_le (List.prefix_append _ _) h hlen
      have h' : s' <+: cleanStream items last := (List.prefix_append_right_inj _).mp h
      obtain ⟨n, g1, g2, g3, g4, g5, g6⟩ := ih (fun x hx => hs x (by simp [hx]))
        (fun x hx => hp x (by simp [hx])) h'
      have hsc : scan maxLen (sep ++ (frame c i p ++ s')) = scan maxLen (frame c i p ++ s') :=
        scan_noSync hs0 _ rfl
      have hd : decode maxLen (sep ++ frame c i p ++ s') =
          (.packet c i p :: (decode maxLen s').1, (decode maxLen s').2) := by
        rw [List.append_assoc, decode_congr hsc]
        exact decode_frame (sep := []) (by simp) hp0 hp'
      refine ⟨n + 1, by simpa using g1, ?_, ?_, ?_, ?_, ?_⟩
      · rw [hd]; simp [g2]
      · intro j hj
        cases j with
        | zero => simp [endOf_zero]
        | succ j =>
          rw [endOf_succ]
          have := g3 j (by simpa using hj)
          simp only [List.length_append]
          omega
      · rw [hd, endOf_succ]; simp only [List.length_append]; omega
      · intro x hx hlt
        rw [hd, endOf_succ] at *
        simp only [List.getElem?_cons_succ] at hx
        simp only [List.length_append] at hlt
        rw [g5 x hx (by omega)]
        rw [show sep.length + (frame c i p).length + endOf items n + x.1.length =
          (sep ++ frame c i p).length + (endOf items n + x.1.length) by
            rw [List.length_append]; omega]
        rw [List.drop_length_add_append]
      · intro k hk
        have hk := announces_sep (t := frame c i p ++ s') (by rw [List.append_assoc]; exact hsc) hk
        have h1 := scan_frame (rest := s') (c := c) (i := i) hp0 hp'
        cases hk with
        | here h =>
          rw [h1] at h; cases h
          exact ⟨(sep, c, i, p), by simp, announced_ofNat hp'⟩
        | afterPacket h h2 h3 h4 h5 =>
          rw [h1] at h; cases h
          rw [announced_ofNat hp', List.drop_left' rfl] at h2
          injection h2 with _ h2
          injection h2 with _ h2
          subst h2
          obtain ⟨x, hx, e⟩ := g6 _ h5
          exact ⟨x, by simp [hx], e⟩
        | afterBad h h2 h3 h4 =>
          rw [h1] at h; cases h
          rw [announced_ofNat hp', List.drop_left' rfl] at h2
          injection h2 with e1 h2
          injection h2 with e2 h2
          exact absurd ⟨by rw [covered_frame hp', e1], by rw [covered_frame hp', e2]⟩ h3
    · have hpre : s <+: sep ++ frame c i p :=
        List.prefix_of_prefix_length_le h (List.prefix_append _ _) (by omega)
      simp only [List.length_append] at hlen
      have hend : ∀ j ≤ items.length + 1, endOf ((sep, c, i, p) :: items) j ≤ s.length ↔ j ≤ 0 := by
        intro j _
        cases j with
        | zero => simp [endOf_zero]
        | succ j => rw [endOf_succ]; omega
      by_cases hl' : s.length ≤ sep.length
      · have : s <+: sep := List.prefix_of_prefix_length_le hpre (List.prefix_append _ _) hl'
        obtain ⟨h1, h2, h3⟩ := decode_noSync_part (maxLen := maxLen) (noSync_prefix hs0 this)
        refine ⟨0, Nat.zero_le _, by simpa using h1, hend, by simpa [endOf_zero] using h2, ?_,
          fun k hk => absurd hk (h3 k)⟩
        intro x hx hlt
        simp only [List.getElem?_cons_zero, Option.some.injEq] at hx
        subst hx
        simp only [endOf_zero] at hlt
        omega
      · obtain ⟨t, rfl⟩ := List.prefix_of_prefix_length_le (List.prefix_append _ _) hpre (by omega)
        have ht : t <+: frame c i p := (List.prefix_append_right_inj _).mp hpre
        simp only [List.length_append] at hlen hl'
        have htk := List.prefix_iff_eq_take.mp ht
        obtain ⟨h1, h2⟩ := scan_part (maxLen := maxLen) (c := c) (i := i) hp0 hp' (k := t.length) (by omega) (by omega)
        have hsc : scan maxLen (sep ++ t) = scan maxLen t :=
          scan_noSync hs0 _ (by rw [htk]; exact hhead _ (by omega))
        rw [← htk] at h1 h2
        have hd : decode maxLen (sep ++ t) = ([], t) := by rw [decode_congr hsc, h1]
        refine ⟨0, Nat.zero_le _, by rw [hd]; rfl, hend, by rw [hd, endOf_zero]; simp, ?_, ?_⟩
        · intro x hx hlt
          simp only [List.getElem?_cons_zero, Option.some.injEq] at hx
          subst hx
          rw [hd, endOf_zero]
          simp
        · intro k hk
          exact ⟨(sep, c, i, p), by simp, h2 k (announces_sep hsc hk)⟩

/-- **C78**, growable buffer: while a stream of frames with bytes in between (no `b5 62` in these)
arrives, at any time, exactly the packets whose last byte has arrived have been returned, and what is
kept is the part of the next frame that has arrived. -/
theorem c78_vec_prompt (hM : D.maxPayloadLen + 8 ≤ M) (hm : D.maxPayloadLen ≤ 65535)
    (items : List (Bytes × UInt8 × UInt8 × Bytes)) (last : Bytes)
    (hsep : ∀ x ∈ items, NoSync x.1) (hlast : NoSync last)
    (hp : ∀ x ∈ items, x.2.2.2.length ≤ D.maxPayloadLen)
    (h : List (Bytes × Nat)) (hfed : fedBytes h <+: cleanStream items last)
    (hc : ∀ x ∈ h, x.1.length + D.maxPayloadLen + 8 ≤ M / 2)
    {rss q} (hq : session M D (vecParser M) h = some (.ok (rss, q))) (he : Exhausted rss) :
    ∃ n ≤ items.length,
      (∀ j ≤ items.length, endOf items j ≤ (fedBytes h).length ↔ j ≤ n) ∧
      results rss = (items.take n).map (fun x => D.matchPacket x.2.1 x.2.2.1 x.2.2.2) ∧
      q.bufferLen ≤ (fedBytes h).length - endOf items n ∧
      ∀ x, items[n]? = some x → endOf items n + x.1.length < (fedBytes h).length →
        q.buf.bytes = (fedBytes h).drop (endOf items n + x.1.length) := by
  obtain ⟨h1, h2⟩ := c05_vec_reference_decoder hM h hc hq he
  obtain ⟨n, g1, g2, g3, g4, g5, -⟩ := decode_prefix hm hsep hlast hp hfed
  refine ⟨n, g1, g3, ?_, ?_, ?_⟩
  · rw [h1, g2, List.map_map]; rfl
  · show q.buf.bytes.length ≤ _
    rw [h2]; exact g4
  · rw [h2]; exact g5

/-- **C78**, fixed buffers that can hold each of the frames but for its last byte. -/
theorem c78_flb_prompt (hM : D.maxPayloadLen + 8 ≤ M) (hm : D.maxPayloadLen ≤ 65535)
    (backing : Bytes) (hb : backing.length ≤ M / 2) (h5 : 5 ≤ backing.length)
    (items : List (Bytes × UInt8 × UInt8 × Bytes)) (last : Bytes)
    (hsep : ∀ x ∈ items, NoSync x.1) (hlast : NoSync last)
    (hp : ∀ x ∈ items, x.2.2.2.length ≤ D.maxPayloadLen)
    (hcap : ∀ x ∈ items, (frame x.2.1 x.2.2.1 x.2.2.2).length ≤ backing.length + 1)
    (h : List (Bytes × Nat)) (hfed : fedBytes h <+: cleanStream items last) (hs : Slices M h)
    {rss q} (hq : session M D (flbParser M backing) h = some (.ok (rss, q))) (he : Exhausted rss) :
    ∃ n ≤ items.length,
      (∀ j ≤ items.length, endOf items j ≤ (fedBytes h).length ↔ j ≤ n) ∧
      results rss = (items.take n).map (fun x => D.matchPacket x.2.1 x.2.2.1 x.2.2.2) ∧
      (flbBytes q).length ≤ (fedBytes h).length - endOf items n ∧
      ∀ x, items[n]? = some x → endOf items n + x.1.length < (fedBytes h).length →
        flbBytes q = (fedBytes h).drop (endOf items n + x.1.length) := by
  obtain ⟨n, g1, g2, g3, g4, g5, g6⟩ := decode_prefix hm hsep hlast hp hfed
  have hf : Fits D.maxPayloadLen backing.length (fedBytes h) := by
    intro k hk
    obtain ⟨x, hx, rfl⟩ := g6 k hk
    have := hcap x hx
    simp [frame, body] at this
    omega
  obtain ⟨h1, h2⟩ := c05_flb_reference_decoder hM backing hb h5 h hs hf hq he
  refine ⟨n, g1, g3, ?_, ?_, ?_⟩
  · rw [h1, g2, List.map_map]; rfl
  · rw [h2]; exact g4
  · rw [h2]; exact g5

/-- A stream that stops in the middle of the second frame. -/
example : fedBytes [(frame 5 1 [6, 0] ++ [13], 3), ([10, 0xb5, 0x62, 5, 0], 9)] <+:
      cleanStream [([], 5, 1, [6, 0]), ([13, 10], 5, 0, [6, 1])] [] ∧
    endOf [([], 5, 1, [6, 0]), ([13, 10], 5, 0, [6, 1])] 1 = 10 ∧
    endOf [([], 5, 1, [6, 0]), ([13, 10], 5, 0, [6, 1])] 2 = 22 := by decide

end Ublox.Props
