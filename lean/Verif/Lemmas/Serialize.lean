import Verif.Spec.Serialize
import Verif.Lemmas.Iter
import Verif.Lemmas.Dispatch

namespace Ublox
open Spec

/-- What `collect_seq` returns for an iterator that yields `items`. -/
theorem collectSeq_of_iterate {M : Nat} {k : IterKind} {items : List IterItem} {st st' : IterState}
    (h : iterate (k.next M) (items.length + 1) st = .ok (items.map some ++ [none], st'))
    (hs : ∀ x ∈ items, ∃ y, x.serialize = .ok y) :
    ∃ ys : List SerItem, k.collectSeq M st = some (.ok ys) ∧ ys.length = items.length ∧
      ∀ (i : Nat) (y : SerItem), ys[i]? = some y → ∃ x, items[i]? = some x ∧ x.serialize = .ok y := by
  induction items generalizing st with
  | nil =>
    simp only [List.length_nil, List.map_nil, List.nil_append] at h
    rw [iterate] at h
    cases hn : k.next M st with
    | error p => rw [hn] at h; exact absurd h (by intro h; cases h)
    | ok r =>
      obtain ⟨a, s⟩ := r
      rw [hn, Except.ok_bind] at h
      simp only [iterate, Except.ok_bind] at h
      have h' : (Except.ok ([a], s) : R _) = .ok ([none], st') := h
      simp only [Except.ok.injEq, Prod.mk.injEq, List.cons.injEq, and_true] at h'
      obtain ⟨rfl, rfl⟩ := h'
      refine ⟨[], ?_, rfl, by simp⟩
      rw [IterKind.collectSeq.eq_def, hn]
  | cons x items ih =>
    simp only [List.length_cons, List.map_cons, List.cons_append] at h
    rw [iterate] at h
    cases hn : k.next M st with
    | error p => rw [hn] at h; exact absurd h (by intro h; cases h)
    | ok r =>
      obtain ⟨a, s⟩ := r
      rw [hn, Except.ok_bind] at h
      simp only at h
      cases hr : iterate (k.next M) (items.length + 1) s with
      | error p => rw [hr] at h; exact absurd h (by intro h; cases h)
      | ok r =>
        obtain ⟨as, s2⟩ := r
        rw [hr, Except.ok_bind] at h
        have h' : (Except.ok (a :: as, s2) : R _) =
          .ok (some x :: (items.map some ++ [none]), st') := h
        simp only [Except.ok.injEq, Prod.mk.injEq, List.cons.injEq] at h'
        obtain ⟨⟨rfl, rfl⟩, rfl⟩ := h'
        obtain ⟨y, hy⟩ := hs x (by simp)
        obtain ⟨ys, h1, h2, h3⟩ := ih hr (fun z hz => hs z (by simp [hz]))
        refine ⟨y :: ys, ?_, by simp [h2], ?_⟩
        · rw [IterKind.collectSeq.eq_def, hn]
          simp only [hy, h1]
          rfl
        · intro i z hz
          cases i with
          | zero => simp at hz; subst hz; exact ⟨x, rfl, hy⟩
          | succ i =>
            rw [List.getElem?_cons_succ] at hz
            simpa using h3 i z hz

theorem serializeEntries_ok {M : Nat} {d : PackDesc} {payload : Bytes} (gs : List Getter)
    (h : ∀ g ∈ gs, ∃ v s, g.run d payload = .ok v ∧ g.field.serialize M v = some (.ok s) ∧ SerOf v s) :
    ∃ ss : List Ser,
      d.serializeEntries M payload gs = some (.ok ((gs.map (·.field.name)).zip ss)) ∧
      ss.length = gs.length ∧
      ∀ (i : Nat) (g : Getter), gs[i]? = some g →
        ∃ v s, ss[i]? = some s ∧ g.run d payload = .ok v ∧ SerOf v s := by
  induction gs with
  | nil => exact ⟨[], rfl, rfl, by simp⟩
  | cons g gs ih =>
    obtain ⟨v, s, hv, hs, hvs⟩ := h g (by simp)
    obtain ⟨ss, h1, h2, h3⟩ := ih fun g hg => h g (by simp [hg])
    refine ⟨s :: ss, ?_, by simp [h2], ?_⟩
    · unfold PackDesc.serializeEntries
      simp only [hv, hs, h1]
      rfl
    · intro i g' hg'
      cases i with
      | zero =>
        simp only [List.getElem?_cons_zero, Option.some.injEq] at hg'
        exact ⟨v, s, rfl, hg' ▸ hv, hvs⟩
      | succ i =>
        rw [List.getElem?_cons_succ] at hg'
        simpa using h3 i g' hg'

/-- Only an iterator conversion returns an iterator. -/
theorem convert_not_iter {c : Conv} {mf : Bool} {r : RawVal} {v : Val} (hc : ∀ k, c ≠ .iter k)
    (h : c.convert mf r = .ok v) (k : IterKind) (data : Bytes) : v ≠ .iter k data := by
  rintro rfl
  unfold Conv.convert at h
  split at h
  all_goals first
    | exact hc _ rfl
    | (split at h <;> simp at h; done)
    | (simp at h; done)
    | skip
  · split at h
    · split at h
      · rename_i e x _ _; cases he : e.fromUnchecked x <;> rw [he] at h <;> cases h
      · cases h
    · split at h
      · rename_i e x _ _; cases he : e.from x <;> rw [he] at h <;> cases h
      · cases h
  · split at h
    · split at h <;> cases h
    · cases h
  · rename_i x; cases he : UartMode.from x <;> rw [he] at h <;> cases h
  · rename_i x; cases he : MonVer.convertToStrUnchecked x <;> rw [he] at h <;> cases h

theorem fieldConvert_not_iter {f : FieldDesc} {r : RawVal} {v : Val} (hc : ∀ k, f.map ≠ some (.iter k))
    (h : f.convert r = .ok v) (k : IterKind) (data : Bytes) : v ≠ .iter k data := by
  rintro rfl
  unfold FieldDesc.convert at h
  have hlast : ∀ w, (match f.scale with
      | some s => mulScale w s
      | none => (Except.ok w : R Val)) = .ok (.iter k data) → w = .iter k data := by
    intro w hw
    cases hs : f.scale with
    | none => rw [hs] at hw; simpa using hw
    | some s => rw [hs] at hw; cases w <;> simp [mulScale] at hw
  cases hm : f.map with
  | none =>
    rw [hm] at h
    have := hlast (.raw r) h
    cases this
  | some c =>
    rw [hm] at h
    simp only at h
    cases he : c.convert f.mayFail r with
    | error p => rw [he] at h; cases h
    | ok w =>
      rw [he, Except.ok_bind] at h
      have := hlast w h
      exact convert_not_iter (fun k hk => hc k (by rw [hm, hk])) he k data this

end Ublox
