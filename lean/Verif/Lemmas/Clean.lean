import Verif.Lemmas.Session

/-!
# Embedded frames and clean streams
-/

namespace Ublox

open Spec

variable {maxLen cap B : Nat}

/-! ## Embedding -/

theorem embeds_prefix {s : Bytes} {fs : List (UInt8 × UInt8 × Bytes)} (g : Bytes)
    (h : Embeds maxLen s fs) : Embeds maxLen (g ++ s) fs := by
  cases h with
  | nil => exact .nil _
  | @cons gap rest c i p fs h1 h2 =>
    have : g ++ (gap ++ frame c i p ++ rest) = (g ++ gap) ++ frame c i p ++ rest := by simp
    rw [this]
    exact .cons h1 h2

theorem embeds_suffix {s r : Bytes} {fs : List (UInt8 × UInt8 × Bytes)} (hs : r <:+ s)
    (h : Embeds maxLen r fs) : Embeds maxLen s fs := by
  obtain ⟨g, rfl⟩ := hs
  exact embeds_prefix g h

theorem embeds_of_append {s : Bytes} {fs gs : List (UInt8 × UInt8 × Bytes)}
    (h : Embeds maxLen s (fs ++ gs)) : Embeds maxLen s fs := by
  induction fs generalizing s with
  | nil => exact .nil _
  | cons f fs ih =>
    cases h with
    | cons h1 h2 => exact .cons h1 (ih h2)

theorem announced_ofNat {n : Nat} (h : n ≤ 65535) :
    announced (UInt8.ofNat (n % 256)) (UInt8.ofNat (n / 256)) = n := by
  simp only [announced, UInt8.toNat_ofNat']
  omega

theorem ofNat_announced (lo hi : UInt8) :
    UInt8.ofNat (announced lo hi % 256) = lo ∧ UInt8.ofNat (announced lo hi / 256) = hi := by
  have h1 := lo.toNat_lt
  have h2 := hi.toNat_lt
  constructor
  · apply UInt8.toNat_inj.mp
    simp only [announced, UInt8.toNat_ofNat']
    omega
  · apply UInt8.toNat_inj.mp
    simp only [announced, UInt8.toNat_ofNat']
    omega

theorem body_eq_covered {c i lo hi a b : UInt8} {tail after : Bytes}
    (h : tail.drop (announced lo hi) = a :: b :: after) :
    body c i (tail.take (announced lo hi)) = covered c i lo hi tail := by
  have hl := after_length h
  simp only [body, covered, List.length_take]
  rw [Nat.min_eq_left (by omega), (ofNat_announced lo hi).1, (ofNat_announced lo hi).2]

/-- A candidate with the right checksum is a frame. -/
theorem header_eq_frame {c i lo hi a b : UInt8} {tail after : Bytes}
    (h : tail.drop (announced lo hi) = a :: b :: after)
    (ha : a = ckA (covered c i lo hi tail)) (hb : b = ckB (covered c i lo hi tail)) :
    header c i lo hi tail = frame c i (tail.take (announced lo hi)) ++ after := by
  simp only [frame, body_eq_covered h, ← ha, ← hb]
  simp only [header, covered, List.cons_append, List.append_assoc, List.nil_append]
  rw [← h, List.take_append_drop]

theorem packets_append (xs ys : List Ev) : packets (xs ++ ys) = packets xs ++ packets ys := by
  induction xs with
  | nil => rfl
  | cons x xs ih => cases x <;> simp [packets, ih]

theorem step_embeds {s r t : Bytes} {ev : Option Ev} {fs : List (UInt8 × UInt8 × Bytes)}
    (h : Step maxLen cap s ev r) (he : Embeds maxLen (r ++ t) fs) :
    Embeds maxLen (s ++ t) (packets ev.toList ++ fs) := by
  have hsuf : ∀ {r'}, r' <:+ s → (r' ++ t) <:+ (s ++ t) := fun ⟨g, hg⟩ => ⟨g, by rw [← hg]; simp⟩
  have h0 := embeds_suffix (hsuf (step_suffix h)) he
  cases h with
  | wait => exact h0
  | incomplete => exact h0
  | noRoom => exact h0
  | noRoomComplete => exact h0
  | bad => exact h0
  | @packet c i lo hi tail a b after h h1 h2 h3 =>
    have hs := hsuf ((scan_suffix maxLen s).2 _ _ _ _ _ h)
    refine embeds_suffix hs ?_
    rw [header_eq_frame h1 h2 h3]
    have := Embeds.cons (gap := []) (rest := r ++ t) (c := c) (i := i)
      (payload := tail.take (announced lo hi)) (fs := fs) (maxLen := maxLen)
      (by have := scan_cand_le h; simp; omega) he
    simpa [packets] using this

theorem run_embeds {s r t : Bytes} {evs : List (Option Ev)} {fs : List (UInt8 × UInt8 × Bytes)}
    (h : Run maxLen cap s evs r) (he : Embeds maxLen (r ++ t) fs) :
    Embeds maxLen (s ++ t) (packets (reports evs) ++ fs) := by
  induction h with
  | nil => exact he
  | @cons s s' s'' ev evs h1 _ ih =>
    have := step_embeds h1 (ih he)
    have e : packets (reports (ev :: evs)) = packets ev.toList ++ packets (reports evs) := by
      rw [← packets_append]
      cases ev <;> rfl
    rw [e, List.append_assoc]
    exact this

theorem hist_embeds {b b' : Bytes} {h : List (Bytes × Nat)} {evss : List (List (Option Ev))}
    (hh : Hist B maxLen cap b h evss b')
    (hk : B ≤ cap ∨ (5 ≤ cap ∧ ∀ evs ∈ evss, none ∈ evs)) :
    Embeds maxLen (b ++ fed h) (packets (reports evss.flatten)) := by
  induction hh with
  | nil b => exact .nil _
  | @cons b c n evs s rest evss b' hB hrun hn _ ih =>
    have hfed : b ++ fed ((c, n) :: rest) = (b ++ c) ++ fed rest := by simp [fed]
    rw [hfed]
    have hs : s.take cap = s := by
      apply List.take_of_length_le
      rcases hk with hk | ⟨hk1, hk2⟩
      · have h1 := (run_suffix hrun).length_le
        have h2 := (trim_suffix (b ++ c)).length_le
        omega
      · obtain ⟨k, s0, m, _, _, _, _, e5⟩ := run_exhausted hrun (hk2 _ (by simp))
        have := (step_none_length e5).1
        omega
    rw [hs] at ih
    have h1 := ih (hk.imp_right fun h => ⟨h.1, fun e he => h.2 e (by simp [he])⟩)
    have h2 := run_embeds hrun h1
    obtain ⟨g, hg⟩ := trim_suffix (b ++ c)
    have h3 := embeds_prefix g h2
    rw [← List.append_assoc, hg] at h3
    simpa [reports, ← packets_append] using h3

/-- A history in which no iterator drops bytes when it ends. -/
inductive HistKept (maxLen cap : Nat) :
    Bytes → List (Bytes × Nat) → List (List (Option Ev)) → Bytes → Prop
  | nil (b) : HistKept maxLen cap b [] [] b
  | cons {b c n evs s rest evss b'} : Run maxLen cap (trim (b ++ c)) evs s →
      HistKept maxLen cap s rest evss b' → HistKept maxLen cap b ((c, n) :: rest) (evs :: evss) b'

theorem histKept_embeds {b b' : Bytes} {h : List (Bytes × Nat)} {evss : List (List (Option Ev))}
    (hh : HistKept maxLen cap b h evss b') :
    Embeds maxLen (b ++ fed h) (packets (reports evss.flatten)) := by
  induction hh with
  | nil b => exact .nil _
  | @cons b c n evs s rest evss b' hrun _ ih =>
    have hfed : b ++ fed ((c, n) :: rest) = (b ++ c) ++ fed rest := by simp [fed]
    rw [hfed]
    have h2 := run_embeds hrun ih
    obtain ⟨g, hg⟩ := trim_suffix (b ++ c)
    have h3 := embeds_prefix g h2
    rw [← List.append_assoc, hg] at h3
    simpa [reports, ← packets_append] using h3

theorem histKept_decode {b b' : Bytes} {h : List (Bytes × Nat)} {evss : List (List (Option Ev))}
    (hh : HistKept maxLen cap b h evss b') (hf : Fits maxLen cap (b ++ fed h)) :
    decode maxLen (b ++ fed h) =
      (reports evss.flatten ++ (decode maxLen b').1, (decode maxLen b').2) := by
  induction hh with
  | nil b => simp [fed, reports]
  | @cons b c n evs s rest evss b' hrun _ ih =>
    have hfed : b ++ fed ((c, n) :: rest) = (b ++ c) ++ fed rest := by simp [fed]
    rw [hfed] at hf ⊢
    have hft := fits_congr (scan_trim_append maxLen (b ++ c) (fed rest)).symm hf
    rw [← decode_congr (scan_trim_append maxLen (b ++ c) (fed rest)),
      run_decode_append (fits_append_left hft) hrun, ih (run_fits hft hrun)]
    simp [reports]

/-! ## Clean streams -/

/-- The frames of the reports in a row. -/
def framesOf (evs : List (Option Ev)) : Bytes :=
  ((packets (reports evs)).map (fun f => frame f.1 f.2.1 f.2.2)).flatten

theorem run_sublist {s r : Bytes} {evs : List (Option Ev)} (h : Run maxLen cap s evs r) :
    (∀ f ∈ packets (reports evs), f.2.2.length ≤ maxLen) ∧
      (framesOf evs ++ r).Sublist s := by
  induction h with
  | nil s => exact ⟨by simp [reports, packets], by simp [framesOf, reports, packets]⟩
  | @cons s s' s'' ev evs h1 _ ih =>
    have hsuf := (step_suffix h1).sublist
    have hno : ∀ (h : packets (reports (ev :: evs)) = packets (reports evs)),
        (∀ f ∈ packets (reports (ev :: evs)), f.2.2.length ≤ maxLen) ∧
        (framesOf (ev :: evs) ++ s'').Sublist s := by
      intro h
      unfold framesOf
      rw [h]
      exact ⟨ih.1, ih.2.trans hsuf⟩
    cases h1 with
    | wait => exact hno rfl
    | incomplete => exact hno rfl
    | noRoom => exact hno rfl
    | noRoomComplete => exact hno rfl
    | bad => exact hno rfl
    | @packet c i lo hi tail a b after h h1 h2 h3 =>
      have hs := ((scan_suffix maxLen s).2 _ _ _ _ _ h).sublist
      rw [header_eq_frame h1 h2 h3] at hs
      refine ⟨?_, ?_⟩
      · intro f hf
        rcases List.mem_cons.mp hf with rfl | hf
        · simp only [List.length_take]
          have := scan_cand_le h
          omega
        · exact ih.1 f hf
      · refine .trans ?_ hs
        show (framesOf (some (.packet c i (tail.take (announced lo hi))) :: evs) ++ s'').Sublist _
        have : framesOf (some (.packet c i (tail.take (announced lo hi))) :: evs) ++ s'' =
            frame c i (tail.take (announced lo hi)) ++ (framesOf evs ++ s'') := by
          simp [framesOf, reports, packets]
        rw [this]
        exact (List.Sublist.refl _).append ih.2

theorem hist_sublist {b b' : Bytes} {h : List (Bytes × Nat)} {evss : List (List (Option Ev))}
    (hh : Hist B maxLen cap b h evss b') :
    (∀ f ∈ packets (reports evss.flatten), f.2.2.length ≤ maxLen) ∧
      (framesOf evss.flatten ++ b').Sublist (b ++ fed h) := by
  induction hh with
  | nil b => exact ⟨by simp [reports, packets], by simp [framesOf, reports, packets, fed]⟩
  | @cons b c n evs s rest evss b' hB hrun hn _ ih =>
    obtain ⟨h1, h2⟩ := run_sublist hrun
    have e : packets (reports (evs :: evss).flatten) =
        packets (reports evs) ++ packets (reports evss.flatten) := by
      rw [← packets_append]; simp [reports]
    refine ⟨?_, ?_⟩
    · intro f hf
      rw [e, List.mem_append] at hf
      exact hf.elim (h1 f) (ih.1 f)
    · have e2 : framesOf (evs :: evss).flatten ++ b' =
          framesOf evs ++ (framesOf evss.flatten ++ b') := by
        simp only [framesOf, e, List.map_append, List.flatten_append, List.append_assoc]
      have e3 : b ++ fed ((c, n) :: rest) = (b ++ c) ++ fed rest := by simp [fed]
      rw [e2, e3]
      refine ((List.Sublist.refl _).append ih.2).trans ?_
      rw [← List.append_assoc]
      refine List.Sublist.append ?_ (.refl _)
      refine (((List.Sublist.refl _).append (List.take_sublist _ _)).trans h2).trans ?_
      exact (trim_suffix _).sublist

theorem scan_sep {sep : Bytes} (h : (0xb5 : UInt8) ∉ sep) (s : Bytes) :
    scan maxLen (sep ++ s) = scan maxLen s := by
  induction sep with
  | nil => rfl
  | cons x t ih =>
    simp only [List.mem_cons, not_or] at h
    rw [List.cons_append]
    conv => lhs; rw [scan.eq_def]
    simp only [if_neg (Ne.symm h.1)]
    exact ih h.2

theorem frame_eq_header (c i : UInt8) (p rest : Bytes) :
    frame c i p ++ rest = header c i (UInt8.ofNat (p.length % 256)) (UInt8.ofNat (p.length / 256))
      (p ++ ckA (body c i p) :: ckB (body c i p) :: rest) := by
  simp [frame, header, body]

/-- Decoding a stream that starts with a frame. -/
theorem scan_frame {c i : UInt8} {p rest : Bytes} (hp : p.length ≤ maxLen) (hp' : p.length ≤ 65535) :
    scan maxLen (frame c i p ++ rest) =
      .cand c i (UInt8.ofNat (p.length % 256)) (UInt8.ofNat (p.length / 256))
        (p ++ ckA (body c i p) :: ckB (body c i p) :: rest) := by
  rw [frame_eq_header, scan_header, announced_ofNat hp', if_pos hp]

theorem covered_frame {c i : UInt8} {p rest : Bytes} (hp' : p.length ≤ 65535) :
    covered c i (UInt8.ofNat (p.length % 256)) (UInt8.ofNat (p.length / 256)) (p ++ rest) =
      body c i p := by
  simp only [covered, announced_ofNat hp', body]
  rw [List.take_left']
  rfl

theorem decode_frame {sep : Bytes} {c i : UInt8} {p rest : Bytes} (hs : (0xb5 : UInt8) ∉ sep)
    (hp : p.length ≤ maxLen) (hp' : p.length ≤ 65535) :
    decode maxLen (sep ++ frame c i p ++ rest) =
      (.packet c i p :: (decode maxLen rest).1, (decode maxLen rest).2) := by
  have h1 := (scan_sep hs _).trans (scan_frame (rest := rest) (c := c) (i := i) hp hp')
  rw [← List.append_assoc] at h1
  rw [decode_packet h1 (a := ckA (body c i p)) (b := ckB (body c i p)) (after := rest)]
  · rw [announced_ofNat hp', List.take_left']; rfl
  · rw [announced_ofNat hp', List.drop_left']; rfl
  · rw [covered_frame hp']
  · rw [covered_frame hp']

/-- A clean stream decodes to its frames. -/
theorem decode_clean {items : List (Bytes × UInt8 × UInt8 × Bytes)} {last : Bytes}
    (hs : ∀ x ∈ items, (0xb5 : UInt8) ∉ x.1) (hl : (0xb5 : UInt8) ∉ last)
    (hp : ∀ x ∈ items, x.2.2.2.length ≤ maxLen) (hm : maxLen ≤ 65535) :
    decode maxLen (cleanStream items last) =
      (items.map fun x => .packet x.2.1 x.2.2.1 x.2.2.2, []) := by
  induction items with
  | nil =>
    have : scan maxLen last = .wait [] := by
      have := scan_sep (maxLen := maxLen) hl []
      rw [List.append_nil] at this
      rw [this, scan.eq_def]
    exact decode_wait this
  | cons x items ih =>
    obtain ⟨sep, c, i, p⟩ := x
    have hp0 := hp (sep, c, i, p) (by simp)
    have hs0 := hs (sep, c, i, p) (by simp)
    simp only at hp0 hs0
    rw [cleanStream, decode_frame hs0 hp0 (by omega), ih (fun x hx => hs x (by simp [hx]))
      (fun x hx => hp x (by simp [hx]))]
    rfl

/-- In a clean stream exactly the lengths of its frames are announced. -/
theorem announces_clean {items : List (Bytes × UInt8 × UInt8 × Bytes)} {last : Bytes} {n : Nat}
    (hs : ∀ x ∈ items, (0xb5 : UInt8) ∉ x.1) (hl : (0xb5 : UInt8) ∉ last)
    (hp : ∀ x ∈ items, x.2.2.2.length ≤ maxLen) (hm : maxLen ≤ 65535)
    (hn : Announces maxLen (cleanStream items last) n) : ∃ x ∈ items, n = x.2.2.2.length := by
  induction items with
  | nil =>
    have : scan maxLen last = .wait [] := by
      have := scan_sep (maxLen := maxLen) hl []
      rw [List.append_nil] at this
      rw [this, scan.eq_def]
    cases hn with
    | here h => rw [cleanStream, this] at h; cases h
    | afterPacket h => rw [cleanStream, this] at h; cases h
    | afterBad h => rw [cleanStream, this] at h; cases h
  | cons x items ih =>
    obtain ⟨sep, c, i, p⟩ := x
    have hp0 := hp (sep, c, i, p) (by simp)
    have hs0 := hs (sep, c, i, p) (by simp)
    simp only at hp0 hs0
    have hp' : p.length ≤ 65535 := by omega
    have h1 := (scan_sep hs0 _).trans
      (scan_frame (rest := cleanStream items last) (c := c) (i := i) hp0 hp')
    rw [← List.append_assoc] at h1
    rw [cleanStream] at hn
    cases hn with
    | here h =>
      rw [h1] at h; cases h
      exact ⟨(sep, c, i, p), by simp, announced_ofNat hp'⟩
    | afterPacket h h2 h3 h4 h5 =>
      rw [h1] at h; cases h
      rw [announced_ofNat hp', List.drop_left' rfl] at h2
      injection h2 with _ h2
      injection h2 with _ h2
      rw [← h2] at h5
      obtain ⟨x, hx, rfl⟩ := ih (fun x hx => hs x (by simp [hx])) (fun x hx => hp x (by simp [hx])) h5
      exact ⟨x, by simp [hx], rfl⟩
    | afterBad h h2 h3 h4 =>
      rw [h1] at h; cases h
      rw [announced_ofNat hp', List.drop_left' rfl] at h2
      injection h2 with h2 h5
      injection h5 with h5 _
      rw [covered_frame hp'] at h3
      exact absurd ⟨h2.symm, h5.symm⟩ h3

end Ublox
