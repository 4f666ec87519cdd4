import Verif.Lemmas.Session

/-!
# Parsers over different buffers that keep the contract cannot be told apart
-/

namespace Ublox

open UnderlyingBuffer (len maxCapacity)

/-- Same outcome: the same panic, or related values. -/
def SameR {α β : Type} (r : α → β → Prop) : R α → R β → Prop
  | .ok a, .ok b => r a b
  | .error p, .error q => p = q
  | _, _ => False

theorem SameR.bind {α β γ δ : Type} {r : α → β → Prop} {s : γ → δ → Prop} {x : R α} {y : R β}
    (h : SameR r x y) {f : α → R γ} {g : β → R δ} (hf : ∀ a b, r a b → SameR s (f a) (g b)) :
    SameR s (x >>= f) (y >>= g) := by
  cases x <;> cases y
  · exact h
  · exact h.elim
  · exact h.elim
  · exact hf _ _ h

theorem SameR.refl {α : Type} (x : R α) : SameR Eq x x := by cases x <;> rfl

theorem SameR.bindEq {α γ δ : Type} {s : γ → δ → Prop} (x : R α) {f : α → R γ} {g : α → R δ}
    (hf : ∀ a, x = .ok a → SameR s (f a) (g a)) : SameR s (x >>= f) (x >>= g) := by
  cases x with
  | error e => rfl
  | ok a => exact hf a rfl

theorem usub_val {a b c : Nat} (h : usub a b = .ok c) : b ≤ a ∧ c = a - b := by
  unfold usub at h
  split at h
  · cases h; exact ⟨by assumption, rfl⟩
  · cases h

theorem uadd_val {M a b c : Nat} (h : uadd M a b = .ok c) : a + b ≤ M ∧ c = a + b := by
  unfold uadd at h
  split at h
  · cases h; exact ⟨by assumption, rfl⟩
  · cases h

variable {T U P : Type} [UnderlyingBuffer T] [UnderlyingBuffer U] {M : Nat} [LawfulBuffer M T]
  [LawfulBuffer M U] {D : Dispatch P}

/-- Two buffers with the same bytes and the same capacity. -/
structure SameBuf (M : Nat) [LawfulBuffer M T] [LawfulBuffer M U] (b : T) (c : U) : Prop where
  invT : LawfulBuffer.Inv M b
  invU : LawfulBuffer.Inv M c
  contents : LawfulBuffer.contents M b = LawfulBuffer.contents M c
  cap : maxCapacity b = maxCapacity c

theorem SameBuf.len_eq {b : T} {c : U} (h : SameBuf M b c) : len b = len c := by
  rw [LawfulBuffer.len_eq h.invT, LawfulBuffer.len_eq h.invU, h.contents]

theorem SameBuf.drain {b : T} {c : U} (h : SameBuf M b c) {n : Nat} (hn : n ≤ len b) :
    SameR (SameBuf M) (UnderlyingBuffer.drain b n) (UnderlyingBuffer.drain c n) := by
  rw [LawfulBuffer.len_eq h.invT] at hn
  obtain ⟨b', h1, h2, h3, h4⟩ := LawfulBuffer.drain_eq (M := M) h.invT hn
  obtain ⟨c', g1, g2, g3, g4⟩ := LawfulBuffer.drain_eq (M := M) h.invU (n := n) (h.contents ▸ hn)
  rw [h1, g1]
  exact ⟨h2, g2, by rw [h3, g3, h.contents], by rw [h4, g4, h.cap]⟩

theorem SameBuf.extend {b : T} {c : U} (h : SameBuf M b c) {xs : Bytes}
    (hT : LawfulBuffer.Room M T (len b + xs.length)) (hU : LawfulBuffer.Room M U (len b + xs.length)) :
    SameR (fun p q => SameBuf M p.1 q.1 ∧ p.2 = q.2 ∧
        p.2 = xs.length - min xs.length (maxCapacity b - len b) ∧
        len p.1 = len b + min xs.length (maxCapacity b - len b))
      (UnderlyingBuffer.extendFromSlice b xs) (UnderlyingBuffer.extendFromSlice c xs) := by
  have hl := LawfulBuffer.len_eq h.invT
  have hl' := LawfulBuffer.len_eq h.invU
  obtain ⟨b', h1, h2, h3, h4⟩ := LawfulBuffer.extend_eq (M := M) h.invT (hl ▸ hT)
  obtain ⟨c', g1, g2, g3, g4⟩ := LawfulBuffer.extend_eq (M := M) h.invU
    (xs := xs) (by rw [← h.contents, ← hl]; exact hU)
  rw [h1, g1]
  refine ⟨⟨h2, g2, ?_, by rw [h4, g4, h.cap]⟩, ?_, rfl, ?_⟩
  · rw [h3, g3, h.contents, h.cap, h.len_eq]
  · rw [h.cap, h.len_eq]
  · show len b' = _
    rw [LawfulBuffer.len_eq h2, h3, List.length_append, ← hl, List.length_take, Nat.min_comm]

theorem SameBuf.range {b : T} {c : U} (h : SameBuf M b c) {s e : Nat} (hs : s ≤ e) (he : e ≤ len b) :
    UnderlyingBuffer.range b s e = UnderlyingBuffer.range c s e := by
  rw [LawfulBuffer.len_eq h.invT] at he
  rw [LawfulBuffer.range_eq h.invT hs he, LawfulBuffer.range_eq h.invU hs (h.contents ▸ he),
    h.contents]

theorem SameBuf.index {b : T} {c : U} (h : SameBuf M b c) {i : Nat} (hi : i < len b) :
    UnderlyingBuffer.index b i = UnderlyingBuffer.index c i := by
  rw [LawfulBuffer.len_eq h.invT] at hi
  rw [LawfulBuffer.index_eq h.invT hi, LawfulBuffer.index_eq h.invU (h.contents ▸ hi)]
  simp only [h.contents]

namespace DualBuffer

/-- Two views with the same layout. -/
structure Same (M : Nat) [LawfulBuffer M T] [LawfulBuffer M U] (d : DualBuffer T)
    (e : DualBuffer U) : Prop where
  buf : SameBuf M d.buf e.buf
  off : d.off = e.off
  newBuf : d.newBuf = e.newBuf
  newOff : d.newOff = e.newOff
  off_le : d.off ≤ len d.buf
  roomT : LawfulBuffer.Room M T (len d.buf + (d.newBuf.length - d.newOff))
  roomU : LawfulBuffer.Room M U (len d.buf + (d.newBuf.length - d.newOff))

variable {d : DualBuffer T} {e : DualBuffer U} (h : Same M d e)
include h

theorem Same.length : d.length M = e.length M := by
  simp only [DualBuffer.length, h.buf.len_eq, h.off, h.newBuf, h.newOff]

theorem Same.index (i : Nat) : d.index M i = e.index M i := by
  simp only [DualBuffer.index, h.buf.len_eq, h.off, h.newBuf, h.newOff]
  cases h1 : uadd M e.off i with
  | error => rfl
  | ok j =>
    simp only [Except.ok_bind]
    split
    · rename_i hj
      obtain ⟨h2, rfl⟩ := uadd_val h1
      rw [uadd_ok (by omega), Except.ok_bind, Except.ok_bind]
      exact h.buf.index (by rw [h.buf.len_eq]; omega)
    · rfl

theorem Same.drain (n : Nat) : SameR (Same M) (d.drain M n) (e.drain M n) := by
  simp only [DualBuffer.drain, h.buf.len_eq, h.off, h.newBuf, h.newOff]
  refine SameR.bindEq _ fun a ha => ?_
  refine SameR.bindEq _ fun b hb => ?_
  refine SameR.bindEq _ fun c hc => ?_
  obtain ⟨_, rfl⟩ := uadd_val hc
  obtain ⟨_, rfl⟩ := usub_val ha
  obtain ⟨_, rfl⟩ := uadd_val hb
  refine ⟨h.buf, rfl, rfl, rfl, by simp only [h.buf.len_eq]; omega, ?_, ?_⟩
  · refine LawfulBuffer.room_mono ?_ h.roomT
    simp only [h.newBuf, h.newOff]; omega
  · refine LawfulBuffer.room_mono ?_ h.roomU
    simp only [h.newBuf, h.newOff]; omega

theorem Same.clear : SameR (Same M) (d.clear M) (e.clear M) := by
  simp only [DualBuffer.clear, h.length]
  exact SameR.bindEq _ fun a _ => h.drain a

theorem Same.potentialLostBytes : d.potentialLostBytes M = e.potentialLostBytes M := by
  simp only [DualBuffer.potentialLostBytes, h.length, h.buf.cap]

theorem Same.canDrainAndTake (dr tk : Nat) : d.canDrainAndTake M dr tk = e.canDrainAndTake M dr tk := by
  simp only [DualBuffer.canDrainAndTake, h.buf.len_eq, h.buf.cap, h.off, h.newBuf, h.newOff]

theorem Same.peekRaw {s t : Nat} (hst : s ≤ t) : d.peekRaw M s t = e.peekRaw M s t := by
  simp only [DualBuffer.peekRaw, h.buf.len_eq, h.off, h.newBuf, h.newOff]
  cases h1 : usub (len e.buf) e.off with
  | error => rfl
  | ok split =>
    simp only [Except.ok_bind]
    obtain ⟨h2, rfl⟩ := usub_val h1
    split
    · rfl
    · rename_i hc
      cases h3 : uadd M s e.off with
      | error => rfl
      | ok a =>
        obtain ⟨h4, rfl⟩ := uadd_val h3
        simp only [Except.ok_bind]
        cases h5 : uadd M t e.off with
        | error => rfl
        | ok b =>
          obtain ⟨h6, rfl⟩ := uadd_val h5
          simp only [Except.ok_bind]
          rw [h.buf.range (by omega) (by rw [h.buf.len_eq]; omega)]

theorem Same.take (n : Nat) :
    SameR (fun p q => p.1 = q.1 ∧ Same M p.2 q.2) (d.take M n) (e.take M n) := by
  obtain ⟨db, doff, dn, dno⟩ := d
  obtain ⟨eb, eoff, en, eno⟩ := e
  obtain ⟨hb, h1, h2, h3, ho, hT, hU⟩ := h
  simp only at hb h1 h2 h3 ho hT hU
  subst h1 h2 h3
  have hle := LawfulBuffer.len_le_cap hb.invT
  simp only [DualBuffer.take, ← hb.len_eq, ← hb.cap]
  refine SameR.bindEq _ fun u hu => ?_
  obtain ⟨hu1, rfl⟩ := usub_val hu
  refine SameR.bindEq _ fun w hw => ?_
  obtain ⟨hw1, rfl⟩ := usub_val hw
  split
  · rfl
  rename_i hnew
  simp only [beq_iff_eq]
  split
  · refine SameR.bindEq _ fun a ha => ?_
    obtain ⟨_, rfl⟩ := uadd_val ha
    refine SameR.bindEq _ fun a' ha' => ?_
    refine SameR.bindEq _ fun b hb' => ⟨rfl, hb, rfl, rfl, rfl, ho, ?_, ?_⟩
    · exact LawfulBuffer.room_mono (by simp only; omega) hT
    · exact LawfulBuffer.room_mono (by simp only; omega) hU
  split
  · refine SameR.bindEq _ fun a ha => ?_
    obtain ⟨_, rfl⟩ := uadd_val ha
    refine SameR.bindEq _ fun a' ha' => ?_
    obtain ⟨_, rfl⟩ := uadd_val ha'
    rw [hb.range (by omega) (by omega)]
    exact SameR.bindEq _ fun b hb' => ⟨rfl, hb, rfl, rfl, rfl, by simp only; omega, hT, hU⟩
  split
  · exact ⟨rfl, hb, rfl, rfl, rfl, ho, hT, hU⟩
  refine SameR.bindEq _ fun room hroom => ?_
  obtain ⟨_, rfl⟩ := usub_val hroom
  split
  · refine SameR.bindEq _ fun src hsrc => ?_
    have hsrc' : src = dn.drop dno := by
      rw [sliceFrom_ok hw1] at hsrc; exact (Except.ok.inj hsrc).symm
    subst hsrc'
    have hlen : (dn.drop dno).length = dn.length - dno := List.length_drop ..
    refine SameR.bind (hb.extend (xs := dn.drop dno) (by rw [hlen]; exact hT)
      (by rw [hlen]; exact hU)) ?_
    rintro ⟨b1, k1⟩ ⟨b2, k2⟩ ⟨hs, hk, hk2, hl⟩
    simp only at hk hk2 hl hs ⊢
    subst hk
    rw [hlen] at hk2 hl
    refine SameR.bindEq _ fun m hm => ?_
    obtain ⟨_, rfl⟩ := usub_val hm
    refine SameR.bindEq _ fun m' hm' => ?_
    obtain ⟨_, rfl⟩ := usub_val hm'
    refine SameR.bindEq _ fun o ho => ?_
    obtain ⟨_, rfl⟩ := uadd_val ho
    refine SameR.bindEq _ fun p hp => ?_
    obtain ⟨_, rfl⟩ := uadd_val hp
    refine SameR.bindEq _ fun p' hp' => ?_
    obtain ⟨_, rfl⟩ := uadd_val hp'
    rw [hs.range (by omega) (by omega)]
    refine SameR.bindEq _ fun b _ => ⟨rfl, hs, rfl, rfl, rfl, by simp only; omega, ?_, ?_⟩
    · exact LawfulBuffer.room_mono (by simp only; omega) hT
    · exact LawfulBuffer.room_mono (by simp only; omega) hU
  · rename_i hz1 hz2 hz3 hz4
    have hcap2 : maxCapacity db ≤ M := LawfulBuffer.cap_le hb.invT
    obtain ⟨b1, i1, i2, i3, i4⟩ := LawfulBuffer.drain_eq (M := M) (n := doff) hb.invT
      (by rw [← LawfulBuffer.len_eq hb.invT]; exact hu1)
    have hl1 : len b1 = len db - doff := by
      rw [LawfulBuffer.len_eq i2, i3, List.length_drop, ← LawfulBuffer.len_eq hb.invT]
    have hd := hb.drain hu1
    rw [i1] at hd ⊢
    cases i5 : UnderlyingBuffer.drain eb doff with
    | error => rw [i5] at hd; exact hd.elim
    | ok b2 =>
      rw [i5] at hd
      have hs : SameBuf M b1 b2 := hd
      simp only [Except.ok_bind]
      refine SameR.bindEq _ fun o ho => ?_
      obtain ⟨_, rfl⟩ := uadd_val ho
      rw [sliceRange_ok (by omega) (by omega)]
      simp only [Except.ok_bind]
      have hlen : ((dn.drop dno).take (dno + (n - min (len db - doff) n) - dno)).length =
          n - min (len db - doff) n := by
        simp only [List.length_take, List.length_drop]; omega
      refine SameR.bind (hs.extend (xs := _) (LawfulBuffer.room_mono (by rw [hlen]; omega) hT)
        (LawfulBuffer.room_mono (by rw [hlen]; omega) hU)) ?_
      rintro ⟨b3, k3⟩ ⟨b4, k4⟩ ⟨hs', hk, hk2, hl⟩
      simp only at hk hk2 hl hs' ⊢
      subst hk
      rw [hlen] at hk2 hl
      refine SameR.bindEq _ fun o' ho' => ?_
      obtain ⟨_, rfl⟩ := uadd_val ho'
      refine SameR.bindEq _ fun p hp => ?_
      obtain ⟨_, rfl⟩ := uadd_val hp
      rw [hs'.range (by omega) (by omega)]
      refine SameR.bindEq _ fun b _ => ⟨rfl, hs', rfl, rfl, rfl, by simp only; omega, ?_, ?_⟩
      · exact LawfulBuffer.room_mono (by simp only; omega) hT
      · exact LawfulBuffer.room_mono (by simp only; omega) hU

theorem Same.dropDual : SameR (SameBuf M) d.dropDual e.dropDual := by
  obtain ⟨db, doff, dn, dno⟩ := d
  obtain ⟨eb, eoff, en, eno⟩ := e
  obtain ⟨hb, h1, h2, h3, ho, hT, hU⟩ := h
  simp only at hb h1 h2 h3 ho hT hU
  subst h1 h2 h3
  simp only [DualBuffer.dropDual]
  obtain ⟨b1, i1, i2, i3, i4⟩ := LawfulBuffer.drain_eq (M := M) (n := doff) hb.invT
    (by rw [← LawfulBuffer.len_eq hb.invT]; exact ho)
  have hl1 : len b1 = len db - doff := by
    rw [LawfulBuffer.len_eq i2, i3, List.length_drop, ← LawfulBuffer.len_eq hb.invT]
  have hd := hb.drain ho
  rw [i1] at hd ⊢
  cases i5 : UnderlyingBuffer.drain eb doff with
  | error => rw [i5] at hd; exact hd.elim
  | ok b2 =>
    rw [i5] at hd
    have hs : SameBuf M b1 b2 := hd
    simp only [Except.ok_bind]
    refine SameR.bindEq _ fun src hsrc => ?_
    have hlen : src.length = dn.length - dno := by
      unfold sliceFrom at hsrc
      split at hsrc
      · cases hsrc; simp
      · cases hsrc
    refine SameR.bind (hs.extend (LawfulBuffer.room_mono (by omega) hT)
      (LawfulBuffer.room_mono (by omega) hU)) ?_
    rintro ⟨b3, k3⟩ ⟨b4, k4⟩ ⟨hs', -⟩
    exact hs'

end DualBuffer

namespace ParserIter

open DualBuffer (Same)

theorem findIndex_congr {f g : Nat → R UInt8} (h : ∀ i, f i = g i) (v : UInt8) (i n : Nat) :
    findIndex f v i n = findIndex g v i n := by
  rw [funext h]

/-- The answer and the iterator afterwards. -/
def SameNext (M : Nat) [LawfulBuffer M T] [LawfulBuffer M U]
    (p : Option (Except ParserError P) × ParserIter T)
    (q : Option (Except ParserError P) × ParserIter U) : Prop :=
  p.1 = q.1 ∧ Same M p.2.buf q.2.buf

theorem extractPacket_same {it : ParserIter T} {jt : ParserIter U} (h : Same M it.buf jt.buf)
    (n : Nat) : SameR (SameNext (P := P) M) (extractPacket M D it n) (extractPacket M D jt n) := by
  unfold extractPacket
  refine SameR.bindEq _ fun a ha => ?_
  rw [h.canDrainAndTake]
  refine SameR.bindEq _ fun b _ => ?_
  split
  · rw [h.potentialLostBytes]
    refine SameR.bindEq _ fun c _ => ?_
    split
    · refine SameR.bind (h.drain 2) fun x y hxy => ?_
      refine SameR.bindEq _ fun _ _ => ⟨rfl, hxy⟩
    · exact ⟨rfl, h⟩
  · refine SameR.bindEq _ fun c hc => ?_
    refine SameR.bindEq _ fun c' hc' => ?_
    obtain ⟨_, rfl⟩ := uadd_val hc
    obtain ⟨_, rfl⟩ := uadd_val hc'
    rw [h.peekRaw (by omega)]
    refine SameR.bindEq _ fun ab _ => ?_
    simp only [h.index]
    refine SameR.bindEq _ fun k1 _ => ?_
    refine SameR.bindEq _ fun k2 _ => ?_
    refine SameR.bindEq _ fun k3 _ => ?_
    refine SameR.bindEq _ fun k4 _ => ?_
    refine SameR.bindEq _ fun k5 _ => ?_
    split
    · exact SameR.bind (h.drain 2) fun x y hxy => ⟨rfl, hxy⟩
    · refine SameR.bindEq _ fun k6 _ => ?_
      refine SameR.bindEq _ fun k7 _ => ?_
      refine SameR.bind (h.drain 6) fun x y hxy => ?_
      refine SameR.bindEq _ fun k8 _ => ?_
      refine SameR.bind (hxy.take _) ?_
      rintro ⟨m1, d1⟩ ⟨m2, d2⟩ ⟨hm, hd⟩
      simp only at hm hd ⊢
      subst hm
      cases m1 with
      | error e => exact ⟨rfl, hd⟩
      | ok m =>
        simp only
        refine SameR.bindEq _ fun _ _ => ?_
        exact SameR.bindEq _ fun _ _ => ⟨rfl, hd⟩

/-- How a pass through the loop ends, with related states. -/
def SameCtl (M : Nat) [LawfulBuffer M T] [LawfulBuffer M U] :
    Ctl (ParserIter T) (Option (Except ParserError P) × ParserIter T) →
    Ctl (ParserIter U) (Option (Except ParserError P) × ParserIter U) → Prop
  | .cont it, .cont jt => Same M it.buf jt.buf
  | .ret p, .ret q => SameNext M p q
  | _, _ => False

theorem nextBody_same {it : ParserIter T} {jt : ParserIter U} (h : Same M it.buf jt.buf) :
    SameR (SameCtl (P := P) M) (nextBody M D it) (nextBody M D jt) := by
  unfold nextBody findSync
  simp only [h.length, findIndex_congr h.index]
  refine SameR.bindEq _ fun n _ => ?_
  split
  · refine SameR.bindEq _ fun pos _ => ?_
    cases pos with
    | none => exact SameR.bind h.clear fun x y hxy => ⟨rfl, hxy⟩
    | some pos =>
      simp only
      refine SameR.bind (h.drain pos) fun x y hxy => ?_
      simp only [hxy.length, hxy.index]
      refine SameR.bindEq _ fun l _ => ?_
      split
      · exact ⟨rfl, hxy⟩
      refine SameR.bindEq _ fun b1 _ => ?_
      split
      · exact SameR.bind (hxy.drain 1) fun x y hxy => hxy
      refine SameR.bindEq _ fun l' _ => ?_
      split
      · exact ⟨rfl, hxy⟩
      refine SameR.bindEq _ fun b4 _ => ?_
      refine SameR.bindEq _ fun b5 _ => ?_
      split
      · exact SameR.bind (hxy.drain 2) fun x y hxy => hxy
      · exact SameR.bind (extractPacket_same (it := ⟨x⟩) (jt := ⟨y⟩) hxy _) fun p q hpq => hpq
  · exact ⟨rfl, h⟩

theorem next_same_of {it : ParserIter T} {r} (hr : next M D it = some r) :
    ∀ jt : ParserIter U, Same M it.buf jt.buf →
      ∃ r', next M D jt = some r' ∧ SameR (SameNext (P := P) M) r r' := by
  refine next.partial_correctness M D (motive := fun it r => ∀ jt : ParserIter U,
    Same M it.buf jt.buf → ∃ r', next M D jt = some r' ∧ SameR (SameNext (P := P) M) r r') ?_ it r hr
  intro next' ih it r hr jt h
  have hb := nextBody_same (D := D) h
  rw [next.eq_def]
  cases h1 : nextBody M D it with
  | error p =>
    rw [h1] at hb hr
    cases h2 : nextBody M D jt with
    | error q =>
      rw [h2] at hb
      cases hr
      exact ⟨_, rfl, hb⟩
    | ok y => rw [h2] at hb; exact hb.elim
  | ok x =>
    rw [h1] at hb hr
    cases h2 : nextBody M D jt with
    | error q => rw [h2] at hb; exact hb.elim
    | ok y =>
      rw [h2] at hb
      have hxy : SameCtl M x y := hb
      cases x <;> cases y
      · exact ih _ _ hr _ hxy
      · exact hxy.elim
      · exact hxy.elim
      · cases hr
        exact ⟨_, rfl, hxy⟩

end ParserIter

namespace Parser

open ParserIter DualBuffer

theorem consume_same {p : Parser T} {q : Parser U} (h : SameBuf M p.buf q.buf) (c : Bytes)
    (hT : LawfulBuffer.Room M T (p.bufferLen + c.length))
    (hU : LawfulBuffer.Room M U (p.bufferLen + c.length)) :
    SameR (fun it jt => Same M it.buf jt.buf) (p.consume M c) (q.consume M c) := by
  have h0 : Same M (DualBuffer.new p.buf c) (DualBuffer.new q.buf c) :=
    ⟨h, rfl, rfl, rfl, Nat.zero_le _, hT, hU⟩
  simp only [consume, h0.length, findIndex_congr h0.index]
  refine SameR.bindEq _ fun n _ => ?_
  refine SameR.bindEq _ fun pos _ => ?_
  cases pos with
  | none => exact h0
  | some i => exact SameR.bind (h0.drain i) fun x y hxy => hxy

theorem callNext_same {n : Nat} {it : ParserIter T} {jt : ParserIter U} (h : Same M it.buf jt.buf)
    {rs it'} (hr : callNext M D n it = some (.ok (rs, it'))) :
    ∃ jt', callNext M D n jt = some (.ok (rs, jt')) ∧ Same M it'.buf jt'.buf := by
  induction n generalizing it jt rs it' with
  | zero =>
    cases hr
    exact ⟨jt, rfl, h⟩
  | succ n ih =>
    simp only [callNext] at hr ⊢
    cases h1 : next M D it with
    | none => rw [h1] at hr; cases hr
    | some r =>
      obtain ⟨r', h2, h3⟩ := next_same_of h1 jt h
      rw [h1] at hr
      rw [h2]
      cases r with
      | error => cases hr
      | ok x =>
        obtain ⟨a, it1⟩ := x
        cases r' with
        | error => exact h3.elim
        | ok y =>
          obtain ⟨b, jt1⟩ := y
          obtain ⟨h4, h5⟩ : a = b ∧ Same M it1.buf jt1.buf := h3
          subst h4
          simp only at hr ⊢
          cases h6 : callNext M D n it1 with
          | none => rw [h6] at hr; cases hr
          | some s =>
            rw [h6] at hr
            cases s with
            | error => cases hr
            | ok z =>
              obtain ⟨rs1, it2⟩ := z
              cases hr
              obtain ⟨jt2, g1, g2⟩ := ih h5 h6
              exact ⟨jt2, by rw [g1], g2⟩

theorem feed_same {p : Parser T} {q : Parser U} (h : SameBuf M p.buf q.buf) {c : Bytes} {n : Nat}
    (hT : LawfulBuffer.Room M T (p.bufferLen + c.length))
    (hU : LawfulBuffer.Room M U (p.bufferLen + c.length)) {rs p'}
    (hr : feed M D p c n = some (.ok (rs, p'))) :
    ∃ q', feed M D q c n = some (.ok (rs, q')) ∧ SameBuf M p'.buf q'.buf := by
  have h1 := consume_same h c hT hU
  simp only [feed] at hr ⊢
  cases h2 : p.consume M c with
  | error => rw [h2] at hr; cases hr
  | ok it =>
    rw [h2] at hr h1
    cases h3 : q.consume M c with
    | error => rw [h3] at h1; exact h1.elim
    | ok jt =>
      rw [h3] at h1
      have hs : Same M it.buf jt.buf := h1
      simp only at hr ⊢
      cases h4 : callNext M D n it with
      | none => rw [h4] at hr; cases hr
      | some x =>
        rw [h4] at hr
        cases x with
        | error => cases hr
        | ok x =>
          obtain ⟨rs1, it1⟩ := x
          obtain ⟨jt1, g1, g2⟩ := callNext_same hs h4
          rw [g1]
          simp only at hr ⊢
          have h5 := g2.dropDual
          cases h6 : it1.buf.dropDual with
          | error => rw [h6] at hr; cases hr
          | ok b =>
            rw [h6] at hr h5
            cases h7 : jt1.buf.dropDual with
            | error => rw [h7] at h5; exact h5.elim
            | ok b' =>
              rw [h7] at h5
              cases hr
              exact ⟨⟨b'⟩, rfl, h5⟩

theorem session_same {h : List (Bytes × Nat)} {p : Parser T} {q : Parser U}
    (hb : SameBuf M p.buf q.buf) (hT : SessionRoom M D p h) (hU : ∀ n, LawfulBuffer.Room M U n) {rss p'}
    (hr : session M D p h = some (.ok (rss, p'))) :
    ∃ q', session M D q h = some (.ok (rss, q')) ∧ SameBuf M p'.buf q'.buf := by
  induction h generalizing p q rss p' with
  | nil => cases hr; exact ⟨q, rfl, hb⟩
  | cons x rest ih =>
    obtain ⟨c, n⟩ := x
    simp only [session] at hr ⊢
    cases h1 : feed M D p c n with
    | none => rw [h1] at hr; cases hr
    | some r =>
      rw [h1] at hr
      cases r with
      | error => cases hr
      | ok y =>
        obtain ⟨rs, p1⟩ := y
        obtain ⟨q1, g1, g2⟩ := feed_same hb (hT [] c n rest rfl [] p rfl).2 (hU _) h1
        rw [g1]
        simp only at hr ⊢
        cases h2 : session M D p1 rest with
        | none => rw [h2] at hr; cases hr
        | some s =>
          rw [h2] at hr
          cases s with
          | error => cases hr
          | ok z =>
            obtain ⟨rss1, p2⟩ := z
            cases hr
            obtain ⟨q2, k1, k2⟩ := ih g2 (by
              intro h1' c' n' h2' he rs' q' hq'
              refine hT ((c, n) :: h1') c' n' h2' (by rw [he]; rfl) (rs :: rs') q' ?_
              simp only [session, h1, hq']) h2
            exact ⟨q2, by rw [k1], k2⟩

end Parser

end Ublox
