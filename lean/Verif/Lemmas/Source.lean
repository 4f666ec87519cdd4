import Mathlib.Data.List.Forall2
import Verif.Lemmas.SourceText

/-!
The reading of a text is compatible with joining texts (`Model/Lex.lean`).
-/

namespace Ublox.Src

open Syn

theorem run_append (s : St) (a b : List Nat) :
    run s (a ++ b) = ((run s a).1 ++ (run (run s a).2 b).1, (run (run s a).2 b).2) := by
  induction a generalizing s with
  | nil => simp [run]
  | cons c a ih =>
    simp only [List.cons_append, run]
    rw [ih]
    simp

theorem lex_iff {cs : List Nat} {ts : List LTok} : lex cs = some ts ↔ run .start cs = (ts, .start) := by
  simp only [lex]
  split
  · next ts' h => rw [h]; simp
  · next h => constructor
              · intro h'; cases h'
              · intro h'; exact absurd h' (h _)

theorem lex_append {a b : List Nat} {x : List LTok} (ha : lex a = some x) :
    lex (a ++ b) = (lex b).map (x ++ ·) := by
  rw [lex_iff] at ha
  simp only [lex, run_append, ha]
  generalize run .start b = r
  obtain ⟨y, s⟩ := r
  cases s <;> rfl

theorem group_length {d : Nat} {ts i r : List LTok} (h : group d ts = some (i, r)) :
    i.length + r.length + 1 = ts.length := by
  induction ts generalizing d i r with
  | nil => simp [group] at h
  | cons t ts ih =>
    simp only [group] at h
    split at h
    · cases d with
      | zero => simp only [Option.some.injEq, Prod.mk.injEq] at h; obtain ⟨rfl, rfl⟩ := h; simp
      | succ d =>
        simp only [Option.map_eq_some_iff, Prod.mk.injEq] at h
        obtain ⟨q, hq, rfl, rfl⟩ := h
        have := ih hq
        simp only [List.length_cons]; omega
    · simp only [Option.map_eq_some_iff, Prod.mk.injEq] at h
      obtain ⟨q, hq, rfl, rfl⟩ := h
      have := ih hq
      simp only [List.length_cons]; omega

theorem group_append {d : Nat} {ts i r : List LTok} (h : group d ts = some (i, r)) (u : List LTok) :
    group d (ts ++ u) = some (i, r ++ u) := by
  induction ts generalizing d i r with
  | nil => simp [group] at h
  | cons t ts ih =>
    simp only [group, List.cons_append] at h ⊢
    split at h
    · next hc =>
      simp only [hc, if_true]
      cases d with
      | zero => simp only [Option.some.injEq, Prod.mk.injEq] at h ⊢; obtain ⟨rfl, rfl⟩ := h; simp
      | succ d =>
        simp only [Option.map_eq_some_iff, Prod.mk.injEq] at h
        obtain ⟨q, hq, rfl, rfl⟩ := h
        simp only [ih hq, Option.map_some]
    · next hc =>
      simp only [Option.map_eq_some_iff, Prod.mk.injEq] at h
      obtain ⟨q, hq, rfl, rfl⟩ := h
      simp only [hc, ih hq, Option.map_some]
      rfl

theorem attrs_stop {m : Nat} {ts : List LTok} (h1 : ∀ ts', ts ≠ .doc :: ts')
    (h2 : ∀ ts', ts ≠ .punct 35 :: .punct 91 :: ts') : attrs m ts = some ([], ts) := by
  unfold attrs
  split
  · exact absurd rfl (h1 _)
  · exact absurd rfl (h2 _)
  · rfl

theorem attrs_append {n : Nat} {ts r : List LTok} {as : List Attr} (h : attrs n ts = some (as, r))
    (hn : ts.length ≤ n) (hr : r ≠ []) (hr' : r ≠ [.punct 35]) (u : List LTok) {m : Nat}
    (hm : ts.length ≤ m) : attrs m (ts ++ u) = some (as, r ++ u) := by
  induction n generalizing ts as m with
  | zero =>
    have : ts = [] := List.length_eq_zero_iff.mp (by omega)
    subst this
    simp only [attrs, Option.some.injEq, Prod.mk.injEq] at h
    exact absurd h.2.symm hr
  | succ n ih =>
    unfold attrs at h
    split at h
    · next fuel ts' hf =>
      have hf : n = fuel := by omega
      subst hf
      simp only [Option.bind_eq_bind, Option.pure_def, Option.bind_eq_some_iff, Option.some.injEq, Prod.mk.injEq] at h
      obtain ⟨⟨as', r'⟩, hq, rfl, rfl⟩ := h
      simp only [List.length_cons] at hn hm
      obtain ⟨m, rfl⟩ : ∃ k, m = k + 1 := ⟨m - 1, by omega⟩
      simp only [List.cons_append, attrs, Option.bind_eq_bind]
      rw [ih hq (by omega) (by omega)]
      rfl
    · next fuel ts' hf =>
      have hf : n = fuel := by omega
      subst hf
      simp only [Option.bind_eq_bind, Option.pure_def, Option.bind_eq_some_iff, Option.some.injEq, Prod.mk.injEq] at h
      obtain ⟨⟨i, ts''⟩, hg, a, ha, ⟨as', r'⟩, hq, rfl, rfl⟩ := h
      have hl := group_length hg
      simp only [List.length_cons] at hn hm
      obtain ⟨m, rfl⟩ : ∃ k, m = k + 1 := ⟨m - 1, by omega⟩
      simp only [List.cons_append, attrs, Option.bind_eq_bind]
      rw [group_append hg]
      simp only [Option.bind_some, ha]
      rw [ih (ts := ts'') hq (by omega) (by omega)]
      rfl
    · next h1 h2 =>
      simp only [Option.some.injEq, Prod.mk.injEq] at h
      obtain ⟨rfl, rfl⟩ := h
      rename_i ts _ _
      apply attrs_stop
      · intro ts' e
        cases ts with
        | nil => exact hr rfl
        | cons t ts => cases e; exact h1 n ts rfl rfl
      · intro ts' e
        cases ts with
        | nil => exact hr rfl
        | cons t ts =>
          cases ts with
          | nil => cases e; exact hr' rfl
          | cons t' ts => cases e; exact h2 n ts rfl rfl

theorem skipItem_append {d : Nat} {ts r : List LTok} (h : skipItem d ts = some r) (u : List LTok) :
    skipItem d (ts ++ u) = some (r ++ u) := by
  induction ts generalizing d with
  | nil => simp [skipItem] at h
  | cons t ts ih =>
    rw [List.cons_append]
    unfold skipItem at h ⊢
    split at h
    · next ho => simp only [ho, if_true]; exact ih h
    · next ho =>
      simp only [ho]
      split at h
      · next hc =>
        simp only [hc, if_true]
        match d with
        | 0 => cases h
        | 1 =>
          simp only at h ⊢
          split at h
          · next hb => simp only [hb, if_true]; cases h; rfl
          · next hb => simp only [hb]; exact ih h
        | d + 2 => exact ih h
      · next hc =>
        simp only [hc]
        split at h
        · next hb => simp only [hb, if_true]; cases h; rfl
        · next hb => simp only [hb]; exact ih h

theorem toBrace_append {ts i r : List LTok} (h : group 0 (toBrace ts) = some (i, r)) (u : List LTok) :
    group 0 (toBrace (ts ++ u)) = some (i, r ++ u) := by
  fun_induction toBrace ts with
  | case1 => simp [group] at h
  | case2 ts => simpa [toBrace] using group_append h u
  | case3 t ts ht ih =>
    have : toBrace (t :: ts ++ u) = toBrace (ts ++ u) := by
      rw [List.cons_append]
      exact toBrace.eq_3 _ _ ht
    rw [this]
    exact ih h

theorem skipPub_append {ts : List LTok} (h : ts ≠ []) (u : List LTok) : skipPub (ts ++ u) = skipPub ts ++ u := by
  cases ts with
  | nil => exact absurd rfl h
  | cons t ts =>
    unfold skipPub
    split
    · next e => cases e; rfl
    · next hn =>
      split
      · next e => cases e; exact absurd rfl (hn _)
      · rfl

theorem marked_ne {m : Mark} {as : List Attr} {ts : List LTok} {r : Item × List LTok}
    (h : marked m as ts = some r) : ts ≠ [] ∧ ts ≠ [.punct 35] := by
  constructor
  · rintro rfl
    cases m <;> simp [marked, skipPub] at h
  · rintro rfl
    cases m <;> simp [marked, skipPub] at h

theorem marked_append {m : Mark} {as : List Attr} {ts r : List LTok} {i : Item}
    (h : marked m as ts = some (i, r)) (u : List LTok) : marked m as (ts ++ u) = some (i, r ++ u) := by
  have hne := (marked_ne h).1
  unfold marked at h ⊢
  rw [skipPub_append hne]
  generalize skipPub ts = ts at h
  split at h
  · simp only [Option.bind_eq_bind, Option.pure_def, Option.bind_eq_some_iff, Option.some.injEq, Prod.mk.injEq] at h
    obtain ⟨⟨i, ts''⟩, hg, f, hf, rfl, rfl⟩ := h
    simp [toBrace_append hg, hf]
  · simp only [Option.bind_eq_bind, Option.pure_def, Option.bind_eq_some_iff, Option.some.injEq, Prod.mk.injEq] at h
    obtain ⟨⟨i, ts''⟩, hg, f, hf, rfl, rfl⟩ := h
    simp [toBrace_append hg, hf]
  · simp only [Option.bind_eq_bind, Option.pure_def, Option.bind_eq_some_iff, Option.some.injEq, Prod.mk.injEq] at h
    obtain ⟨⟨i, ts''⟩, hg, f, hf, rfl, rfl⟩ := h
    simp [group_append hg, hf]
  · cases h

/-- An item at the beginning: the item, if a macro is called for it, and what follows. -/
def item1 (ts : List LTok) : Option (List Item × List LTok) := do
  let (as, ts) ← attrs ts.length ts
  match splitMark as with
  | some (m, as) =>
    let (i, ts) ← marked m as ts
    return ([i], ts)
  | none =>
    match ts with
    | .ident [100, 101, 102, 105, 110, 101, 95, 114, 101, 99, 118, 95, 112, 97, 99, 107, 101, 116, 115] :: .punct 33 :: .punct 40 :: ts =>
      let (inside, ts) ← group 0 ts
      return ([.recv (← inside.mapM tok)], ts)
    | ts =>
      let ts ← skipItem 0 ts
      return ([], ts)

theorem items_succ (n : Nat) {ts : List LTok} (h : ts ≠ []) :
    items (n + 1) ts = (item1 ts).bind fun r => (items n r.2).map (r.1 ++ ·) := by
  cases ts with
  | nil => exact absurd rfl h
  | cons t ts =>
    rw [items.eq_3 _ _ (by simp)]
    unfold item1
    cases attrs (t :: ts).length (t :: ts) with
    | none => rfl
    | some r =>
      obtain ⟨as, ts⟩ := r
      simp only [Option.bind_eq_bind, Option.bind_some, Option.pure_def]
      cases splitMark as with
      | some r =>
        obtain ⟨m, as⟩ := r
        simp only
        cases marked m as ts with
        | none => rfl
        | some r => cases hi : items n r.2 <;> simp [hi]
      | none =>
        simp only
        split
        · next _ ts =>
          simp only
          cases group 0 ts with
          | none => rfl
          | some r =>
            obtain ⟨i, ts⟩ := r
            simp only [Option.bind_some]
            cases i.mapM tok with
            | none => rfl
            | some i => cases hi : items n ts <;> simp [hi]
        · next hx =>
          split
          · exact absurd rfl (hx _)
          · cases skipItem 0 ts with
            | none => rfl
            | some ts => cases hi : items n ts <;> simp [hi]

theorem item1_append {ts r : List LTok} {l : List Item} (h : item1 ts = some (l, r)) (u : List LTok) :
    item1 (ts ++ u) = some (l, r ++ u) := by
  unfold item1 at h ⊢
  cases ha : attrs ts.length ts with
  | none => simp [ha] at h
  | some q =>
    obtain ⟨as, ts'⟩ := q
    simp only [ha, Option.bind_eq_bind, Option.bind_some, Option.pure_def] at h ⊢
    have key : ts' ≠ [] → ts' ≠ [.punct 35] → attrs (ts ++ u).length (ts ++ u) = some (as, ts' ++ u) :=
      fun h1 h2 => attrs_append ha (Nat.le_refl _) h1 h2 u (by simp)
    cases hs : splitMark as with
    | some r' =>
      obtain ⟨m, as'⟩ := r'
      simp only [hs] at h
      simp only [Option.bind_eq_some_iff, Option.some.injEq, Prod.mk.injEq] at h
      obtain ⟨⟨i, ts''⟩, hm, rfl, rfl⟩ := h
      have hne := marked_ne hm
      rw [key hne.1 hne.2]
      simp [hs, marked_append hm]
    | none =>
      simp only [hs] at h
      split at h
      · next ts'' =>
        simp only [Option.bind_eq_some_iff, Option.some.injEq, Prod.mk.injEq] at h
        obtain ⟨⟨i, ts3⟩, hg, i', hi, rfl, rfl⟩ := h
        rw [key (by simp) (by simp)]
        simp [hs, group_append hg, hi]
      · next hx =>
        simp only [Option.bind_eq_some_iff, Option.some.injEq, Prod.mk.injEq] at h
        obtain ⟨r', hk, rfl, rfl⟩ := h
        have h1 : ts' ≠ [] := by rintro rfl; simp [skipItem] at hk
        have h2 : ts' ≠ [.punct 35] := by rintro rfl; simp [skipItem, isOpen, isClose] at hk
        rw [key h1 h2]
        simp only [Option.bind_some, hs]
        split
        · next ts'' e =>
          match ts', e with
          | [a], e => 
            simp only [List.cons_append, List.nil_append, List.cons.injEq] at e
            obtain ⟨rfl, _⟩ := e
            simp [skipItem, isOpen, isClose] at hk
          | [a, b], e => 
            simp only [List.cons_append, List.nil_append, List.cons.injEq] at e
            obtain ⟨rfl, rfl, _⟩ := e
            simp [skipItem, isOpen, isClose] at hk
          | a :: b :: c :: rest, e =>
            simp only [List.cons_append, List.cons.injEq] at e
            obtain ⟨rfl, rfl, rfl, rfl⟩ := e
            exact absurd rfl (hx _)
        · simp [skipItem_append hk]

theorem items_mono {n m : Nat} (hnm : n ≤ m) {ts : List LTok} {l : List Item} (h : items n ts = some l) :
    items m ts = some l := by
  induction n generalizing m ts l with
  | zero =>
    cases ts with
    | nil => cases m <;> simpa [items] using h
    | cons t ts => simp [items] at h
  | succ n ih =>
    obtain ⟨m, rfl⟩ : ∃ k, m = k + 1 := ⟨m - 1, by omega⟩
    cases ts with
    | nil => simpa [items] using h
    | cons t ts =>
      rw [items_succ _ (by simp)] at h ⊢
      simp only [Option.bind_eq_some_iff, Option.map_eq_some_iff] at h
      obtain ⟨r, hr, l', hl, rfl⟩ := h
      have := ih (m := m) (by omega) hl
      simp [hr, this]

theorem items_append {n k : Nat} {ts u : List LTok} {l l' : List Item} (h : items n ts = some l)
    (h' : items k u = some l') : items (n + k) (ts ++ u) = some (l ++ l') := by
  induction n generalizing ts l with
  | zero =>
    cases ts with
    | nil =>
      simp only [items, Option.some.injEq] at h
      subst h
      simpa using h'
    | cons t ts => simp [items] at h
  | succ n ih =>
    cases ts with
    | nil =>
      simp only [items, Option.some.injEq] at h
      subst h
      simpa using items_mono (by omega) h'
    | cons t ts =>
      rw [items_succ _ (by simp)] at h
      simp only [Option.bind_eq_some_iff, Option.map_eq_some_iff] at h
      obtain ⟨⟨a, r⟩, hr, l1, hl, rfl⟩ := h
      rw [show n + 1 + k = n + k + 1 by omega, items_succ _ (by simp), item1_append hr]
      simp [ih hl]

theorem itemsOf_append {a b : List Nat} {l l' : List Item} (ha : itemsOf a = some l) (hb : itemsOf b = some l') :
    itemsOf (a ++ b) = some (l ++ l') := by
  simp only [itemsOf, Option.bind_eq_bind, Option.bind_eq_some_iff] at ha hb ⊢
  obtain ⟨x, hx, hl⟩ := ha
  obtain ⟨y, hy, hl'⟩ := hb
  refine ⟨x ++ y, by rw [lex_append hx, hy]; rfl, ?_⟩
  rw [List.length_append]
  exact items_append hl hl'

theorem rows_append {a b : List LTok} {x : List CfgItem} (ha : rows a = some x) :
    rows (a ++ b) = (rows b).map (x ++ ·) := by
  fun_induction rows a generalizing x with
  | case1 => cases ha; simp
  | case2 ts ih => simpa [rows] using ih ha
  | case3 name key ty ts ih =>
    simp only [Option.bind_eq_bind, Option.bind_eq_some_iff, Option.pure_def] at ha
    obtain ⟨k, hk, ha⟩ := ha
    simp only [List.cons_append, rows, hk, Option.bind_eq_bind, Option.bind_some, Option.pure_def]
    split at ha
    · next k =>
      simp only [Option.bind_eq_some_iff, Option.some.injEq] at ha
      obtain ⟨t, ht, l, hl, rfl⟩ := ha
      simp only [ht, Option.bind_some, ih hl]
      cases rows b <;> simp
    · cases ha
  | case4 => cases ha

theorem rowsOf_append {a b : List Nat} {x y : List CfgItem} (ha : rowsOf a = some x) (hb : rowsOf b = some y) :
    rowsOf (a ++ b) = some (x ++ y) := by
  simp only [rowsOf, Option.bind_eq_bind, Option.bind_eq_some_iff] at ha hb ⊢
  obtain ⟨x', hx, hl⟩ := ha
  obtain ⟨y', hy, hl'⟩ := hb
  exact ⟨x' ++ y', by rw [lex_append hx, hy]; rfl, by rw [rows_append hl, hl']; rfl⟩

theorem codes_join (l : List String) : codes (String.join l) = l.flatMap codes := by
  simp only [codes, String.toList_join, List.map_flatMap]
  rfl

theorem itemsOf_strings {ss : List String} {ls : List (List Item)}
    (h : List.Forall₂ (fun s l => itemsOf (codes s) = some l) ss ls) :
    itemsOf (codes (String.join ss)) = some ls.flatten := by
  rw [codes_join]
  induction h with
  | nil => rfl
  | cons h _ ih => exact itemsOf_append h ih

theorem rowsOf_strings {ss : List String} {ls : List (List CfgItem)}
    (h : List.Forall₂ (fun s l => rowsOf (codes s) = some l) ss ls) :
    rowsOf (codes (String.join ss)) = some ls.flatten := by
  rw [codes_join]
  induction h with
  | nil => rfl
  | cons h _ ih => exact rowsOf_append h ih

end Ublox.Src
