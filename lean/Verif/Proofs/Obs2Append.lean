import Verif.Proofs.Obs2Body
/-! # RINEX 2: appending lines, errors -/
namespace Verif.Proofs
open Verif.Py Verif.Model Verif.Spec Verif.Props

theorem nextRec_append {ls ls' b : List Str} {l : Str} (h : nextRec ls = .ok (l, ls')) :
    nextRec (ls ++ b) = .ok (l, ls' ++ b) := by
  cases ls with
  | nil => simp [nextRec] at h
  | cons x xs =>
    simp only [nextRec, Except.ok.injEq, Prod.mk.injEq] at h
    obtain ⟨rfl, rfl⟩ := h; rfl

theorem takeLines_append {k : Nat} {ls r ls' : List Str} (b : List Str) (h : takeLines k ls = .ok (r, ls')) :
    takeLines k (ls ++ b) = .ok (r, ls' ++ b) := by
  induction k generalizing ls r with
  | zero =>
    simp only [takeLines, Except.ok.injEq, Prod.mk.injEq] at h ⊢
    obtain ⟨rfl, rfl⟩ := h; exact ⟨rfl, rfl⟩
  | succ k ih =>
    simp only [takeLines, bind_eq_ok, Prod.exists, pure_eq_ok, Prod.mk.injEq] at h ⊢
    obtain ⟨a, b', h1, c, d, h2, rfl, rfl⟩ := h
    exact ⟨a, b' ++ b, nextRec_append h1, c, d ++ b, ih h2, rfl, rfl⟩

theorem fullPrnLines_append {k : Nat} {ls r ls' : List Str} (b : List Str) (h : fullPrnLines k ls = .ok (r, ls')) :
    fullPrnLines k (ls ++ b) = .ok (r, ls' ++ b) := by
  induction k generalizing ls r with
  | zero =>
    simp only [fullPrnLines, Except.ok.injEq, Prod.mk.injEq] at h ⊢
    obtain ⟨rfl, rfl⟩ := h; exact ⟨rfl, rfl⟩
  | succ k ih =>
    simp only [fullPrnLines, bind_eq_ok, Prod.exists, pure_eq_ok, Prod.mk.injEq] at h ⊢
    obtain ⟨a, b', h1, p, hp, c, d, h2, rfl, rfl⟩ := h
    exact ⟨a, b' ++ b, nextRec_append h1, p, hp, c, d ++ b, ih h2, rfl, rfl⟩

theorem readPrns_append {ep : Str} {n : Int} {ls r ls' : List Str} (b : List Str)
    (h : readPrns ep n ls = .ok (r, ls')) : readPrns ep n (ls ++ b) = .ok (r, ls' ++ b) := by
  unfold readPrns at h ⊢
  split at h
  · rename_i hn
    rw [if_pos hn]
    simp only [bind_eq_ok, Prod.exists] at h ⊢
    obtain ⟨p0, h0, p1, l1, h1, h2⟩ := h
    refine ⟨p0, h0, p1, l1 ++ b, fullPrnLines_append b h1, ?_⟩
    split at h2
    · rename_i hr
      rw [if_pos hr]
      simp only [bind_eq_ok, Prod.exists, pure_eq_ok, Prod.mk.injEq] at h2 ⊢
      obtain ⟨a, b', h3, c, h4, rfl, rfl⟩ := h2
      exact ⟨a, b' ++ b, nextRec_append h3, c, h4, rfl, rfl⟩
    · rename_i hr
      rw [if_neg hr]
      simp only [pure_eq_ok, Prod.mk.injEq] at h2 ⊢
      obtain ⟨rfl, rfl⟩ := h2; exact ⟨rfl, rfl⟩
  · rename_i hn
    rw [if_neg hn]
    simp only [bind_eq_ok, pure_eq_ok, Prod.mk.injEq] at h ⊢
    obtain ⟨ps, hp, rfl, rfl⟩ := h
    exact ⟨ps, hp, rfl, rfl⟩

theorem readEpoch_append {ep : Str} {ls ls' : List Str} {e : Epoch2} (b : List Str)
    (h : readEpoch ep ls = .ok (e, ls')) : readEpoch ep (ls ++ b) = .ok (e, ls' ++ b) := by
  unfold readEpoch at h ⊢
  cases hf : parseInt (slice ep 26 29) with
  | none => rw [hf] at h; simp at h
  | some flag =>
    rw [hf] at h
    simp only at h ⊢
    by_cases hfl : flag > 1
    · rw [if_pos hfl] at h ⊢
      cases hn : parseInt (slice ep 29 32) with
      | none => rw [hn] at h; simp at h
      | some n =>
        rw [hn] at h
        simp only [Except.ok.injEq, Prod.mk.injEq] at h ⊢
        obtain ⟨rfl, rfl⟩ := h; exact ⟨rfl, rfl⟩
    · rw [if_neg hfl] at h ⊢
      simp only [bind_eq_ok] at h ⊢
      obtain ⟨t, ht, h⟩ := h
      refine ⟨t, ht, ?_⟩
      cases hn : parseInt (slice ep 29 32) with
      | none => rw [hn] at h; simp at h
      | some n =>
        rw [hn] at h
        simp only [bind_eq_ok, Prod.exists] at h ⊢
        obtain ⟨p, l, h1, h⟩ := h
        refine ⟨p, l ++ b, readPrns_append b h1, ?_⟩
        split at h
        · simp at h
        · rename_i hne
          rw [if_neg hne]
          simp only [Except.ok.injEq, Prod.mk.injEq] at h ⊢
          obtain ⟨rfl, rfl⟩ := h; exact ⟨rfl, rfl⟩

theorem readSatLines_append {ns : List Nat} {ls ls' : List Str} {r : List ObsVal} (b : List Str)
    (h : readSatLines ns ls = .ok (r, ls')) : readSatLines ns (ls ++ b) = .ok (r, ls' ++ b) := by
  induction ns generalizing ls r with
  | nil =>
    simp only [readSatLines, Except.ok.injEq, Prod.mk.injEq] at h ⊢
    obtain ⟨rfl, rfl⟩ := h; exact ⟨rfl, rfl⟩
  | cons n ns ih =>
    simp only [readSatLines, bind_eq_ok, Prod.exists, pure_eq_ok, Prod.mk.injEq] at h ⊢
    obtain ⟨a, b', h1, c, h2, d, e, h3, rfl, rfl⟩ := h
    exact ⟨a, b' ++ b, nextRec_append h1, c, h2, d, e ++ b, ih h3, rfl, rfl⟩

theorem readSats_append (c : Cfg2) (st : St2) (t : DateTime) (prns ls b : List Str) :
    match readSats c st t prns ls with
    | (ys, .ok l') => readSats c st t prns (ls ++ b) = (ys, .ok (l' ++ b))
    | (ys, .error _) => ys <+: (readSats c st t prns (ls ++ b)).1 := by
  induction prns generalizing ls with
  | nil => simp [readSats]
  | cons p prns ih =>
    simp only [readSats]
    cases h1 : readSatLines c.lines ls with
    | error e => simp
    | ok x =>
      obtain ⟨data, l1⟩ := x
      rw [readSatLines_append b h1]
      simp only
      cases hz : zipTypes c.types data [] with
      | error e => simp
      | ok d =>
        have hi := ih l1
        simp only
        cases hr : readSats c st t prns l1 with
        | mk y r =>
          rw [hr] at hi
          cases r with
          | ok l' =>
            simp only at hi ⊢
            rw [hi]
            by_cases hp : st.preceding = some t <;> simp [hp]
          | error e =>
            simp only at hi ⊢
            by_cases hp : st.preceding = some t
            · simp only [hp, if_true]; exact hi
            · simp only [hp, if_false]; exact List.cons_prefix_cons.2 ⟨rfl, hi⟩

theorem readBlock_append (c : Cfg2) (st : St2) (l : Str) (ls b : List Str) :
    match readBlock c st l ls with
    | (ys, .ok (st', l')) => readBlock c st l (ls ++ b) = (ys, .ok (st', l' ++ b))
    | (ys, .error _) => ys <+: (readBlock c st l (ls ++ b)).1 := by
  unfold readBlock
  cases he : readEpoch (rstrip l) ls with
  | error e => simp
  | ok x =>
    obtain ⟨ep, l1⟩ := x
    rw [readEpoch_append b he]
    simp only
    by_cases h34 : ep.flag = 3 ∨ ep.flag = 4
    · simp only [h34, if_true]
      cases ht : takeLines ep.num.toNat l1 with
      | error e => simp
      | ok y =>
        obtain ⟨hl, l2⟩ := y
        rw [takeLines_append b ht]
        simp only
        cases parseHeader c.version hl st.hdr <;> simp
    · simp only [h34, if_false]
      by_cases h1 : ep.flag > 1
      · simp only [h1, if_true]
        cases ht : takeLines ep.num.toNat l1 with
        | error e => simp
        | ok y =>
          obtain ⟨hl, l2⟩ := y
          rw [takeLines_append b ht]
      · simp only [h1, if_false]
        cases ep.epoch with
        | none => simp
        | some t =>
          have := readSats_append c st t ep.prns l1 b
          simp only
          cases hr : readSats c st t ep.prns l1 with
          | mk y r =>
            rw [hr] at this
            cases r with
            | ok l' => simp only at this ⊢; rw [this]
            | error e =>
              simp only at this ⊢
              cases hr2 : readSats c st t ep.prns (l1 ++ b) with
              | mk y2 r2 =>
                rw [hr2] at this
                cases r2 <;> exact this

theorem readLoop_append (c : Cfg2) (n : Nat) (st : St2) (ls b : List Str) (hn : ls.length ≤ n) :
    (readRecords2 c st ls).yields <+: (readRecords2 c st (ls ++ b)).yields := by
  induction n generalizing st ls with
  | zero =>
    have : ls = [] := List.length_eq_zero_iff.1 (by omega)
    subst this; simp [readRecords2, readLoop]
  | succ n ih =>
    cases ls with
    | nil => simp [readRecords2, readLoop]
    | cons l ls =>
      rw [List.cons_append, readRecords2_cons, readRecords2_cons]
      have hb := readBlock_append c st l ls b
      cases hr : readBlock c st l ls with
      | mk ys r =>
        rw [hr] at hb
        cases r with
        | ok x =>
          obtain ⟨st', l'⟩ := x
          simp only at hb ⊢
          rw [hb]
          simp only
          have := readBlock_len hr
          exact List.prefix_append_right_inj _ |>.2 (ih st' l' (by simp at hn; omega))
        | error e =>
          simp only at hb ⊢
          cases hr2 : readBlock c st l (ls ++ b) with
          | mk y2 r2 =>
            rw [hr2] at hb
            cases r2 with
            | error e2 => exact hb
            | ok x => exact List.IsPrefix.trans hb (List.prefix_append _ _)

/-! ## which errors -/

theorem getVal_error {rec : Str} {i n : Nat} {e : PyErr} (h : getVal rec i n = .error e) : e = .rinex := by
  unfold getVal at h
  simp only at h
  split at h
  · split at h
    · simpa using h.symm
    · simp at h
  · simp at h

theorem getPrn_error {rec : Str} {i : Nat} {e : PyErr} (h : getPrn rec i = .error e) : e = .rinex := by
  unfold getPrn at h
  split at h
  · simpa using h.symm
  · simp only at h
    split at h
    · simpa using h.symm
    · simp at h

theorem getPrns_error {rec : Str} {is : List Nat} {e : PyErr} (h : getPrns rec is = .error e) : e = .rinex := by
  induction is with
  | nil => simp [getPrns] at h
  | cons i is ih =>
    simp only [getPrns, bind_eq_error, pure, Except.pure, reduceCtorEq, and_false, exists_false, or_false] at h
    rcases h with h | ⟨a, _, h⟩
    · exact getPrn_error h
    · exact ih h

theorem nextRec_error {ls : List Str} {e : PyErr} (h : nextRec ls = .error e) : e = .rinex := by
  cases ls with
  | nil => simpa [nextRec] using h.symm
  | cons => simp [nextRec] at h

theorem takeLines_error {k : Nat} {ls : List Str} {e : PyErr} (h : takeLines k ls = .error e) : e = .rinex := by
  induction k generalizing ls with
  | zero => simp [takeLines] at h
  | succ k ih =>
    simp only [takeLines, bind_eq_error, pure, Except.pure, reduceCtorEq, and_false, exists_false, or_false] at h
    rcases h with h | ⟨a, _, h⟩
    · exact nextRec_error h
    · exact ih h

theorem fullPrnLines_error {k : Nat} {ls : List Str} {e : PyErr} (h : fullPrnLines k ls = .error e) :
    e = .rinex := by
  induction k generalizing ls with
  | zero => simp [fullPrnLines] at h
  | succ k ih =>
    simp only [fullPrnLines, bind_eq_error, pure, Except.pure, reduceCtorEq, and_false, exists_false, or_false] at h
    rcases h with h | ⟨a, _, h | ⟨p, _, h⟩⟩
    · exact nextRec_error h
    · exact getPrns_error h
    · exact ih h

theorem readPrns_error {ep : Str} {n : Int} {ls : List Str} {e : PyErr} (h : readPrns ep n ls = .error e) :
    e = .rinex := by
  unfold readPrns at h
  split at h
  · simp only [bind_eq_error] at h
    rcases h with h | ⟨a, _, h | ⟨p, _, h⟩⟩
    · exact getPrns_error h
    · exact fullPrnLines_error h
    · split at h
      · simp only [bind_eq_error, pure, Except.pure, reduceCtorEq, and_false, exists_false, or_false] at h
        rcases h with h | ⟨a, _, h⟩
        · exact nextRec_error h
        · exact getPrns_error h
      · simp [pure, Except.pure] at h
  · simp only [bind_eq_error, pure, Except.pure, reduceCtorEq, and_false, exists_false, or_false] at h
    exact getPrns_error h

theorem readFields_error {rec : Str} {is : List Nat} {e : PyErr} (h : readFields rec is = .error e) : e = .rinex := by
  induction is with
  | nil => simp [readFields] at h
  | cons i is ih =>
    simp only [readFields, bind_eq_error, pure, Except.pure, reduceCtorEq, and_false, exists_false, or_false] at h
    rcases h with h | ⟨a, _, h⟩
    · exact getVal_error h
    · exact ih h

theorem readSatLines_error {ns : List Nat} {ls : List Str} {e : PyErr} (h : readSatLines ns ls = .error e) :
    e = .rinex := by
  induction ns generalizing ls with
  | nil => simp [readSatLines] at h
  | cons n ns ih =>
    simp only [readSatLines, bind_eq_error, pure, Except.pure, reduceCtorEq, and_false, exists_false, or_false] at h
    rcases h with h | ⟨a, _, h | ⟨p, _, h⟩⟩
    · exact nextRec_error h
    · exact readFields_error h
    · exact ih h

theorem readFields_length {rec : Str} {is : List Nat} {v : List ObsVal} (h : readFields rec is = .ok v) :
    v.length = is.length := by
  induction is generalizing v with
  | nil => simp [readFields] at h; simp [h]
  | cons i is ih =>
    simp only [readFields, bind_eq_ok, pure_eq_ok] at h
    obtain ⟨a, _, b, hb, rfl⟩ := h
    simp [ih hb]

theorem readSatLines_count {ns : List Nat} {ls ls' : List Str} {v : List ObsVal}
    (h : readSatLines ns ls = .ok (v, ls')) : v.length = ns.sum := by
  induction ns generalizing ls v with
  | nil =>
    simp only [readSatLines, Except.ok.injEq, Prod.mk.injEq] at h
    simp [← h.1]
  | cons n ns ih =>
    simp only [readSatLines, bind_eq_ok, Prod.exists, pure_eq_ok, Prod.mk.injEq] at h
    obtain ⟨a, b', h1, c, h2, d, e, h3, rfl, rfl⟩ := h
    have := readFields_length h2
    rw [pyRange_fields, List.length_range'] at this
    simp [ih h3, this]

theorem linesPerRec_sum (n : Nat) : (linesPerRec n).sum = n := by
  have h := linesPerRec_chunks (List.replicate n ())
  have h2 := congrArg List.length (chunks_flatten 5 (List.replicate n ()) (by omega))
  rw [List.length_replicate] at h
  rw [h]
  rw [List.length_flatten, List.length_replicate] at h2
  exact h2

theorem readSats_error {c : Cfg2} (hc : c.lines = linesPerRec c.types.length) {st : St2} {t : DateTime}
    {prns ls : List Str} {ys : List (Rec2 × St2)} {e : PyErr} (h : readSats c st t prns ls = (ys, .error e)) :
    e = .rinex := by
  induction prns generalizing ls ys with
  | nil => simp [readSats] at h
  | cons p prns ih =>
    simp only [readSats] at h
    split at h
    · rename_i e' he
      simp only [Prod.mk.injEq, Except.error.injEq] at h
      rw [← h.2]; exact readSatLines_error he
    · rename_i data l1 hl
      have hcount := readSatLines_count hl
      rw [hc, linesPerRec_sum] at hcount
      obtain ⟨d, hd⟩ := zipTypes_len c.types data [] (by omega)
      rw [hd] at h
      simp only at h
      cases hr : readSats c st t prns l1 with
      | mk y r =>
        rw [hr] at h
        simp only at h
        have hrr : r = .error e := by split at h <;> simp_all
        rw [hrr] at hr
        exact ih hr

end Verif.Proofs
