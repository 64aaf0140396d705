import Verif.Spec.Tail
import Verif.Proofs.Obs2Append
import Verif.Proofs.Obs2File
import Verif.Proofs.Output
import Verif.Props.Rinex3File
/-! # Lines behind an observation file -/
namespace Verif.Proofs
open Verif.Py Verif.Model Verif.Spec Verif.Props

/-! ## RINEX 2: the second reading sees the epochs of the first -/

theorem assign_total {v : Nat} {i : HItem} {line : Str} {h h' : HeaderVals} :
    (∀ e, i.assign v line h = .error e → i.assign v line h' = .error e) ∧ ∀ x, i.assign v line h = .ok x → ∃ x', i.assign v line h' = .ok x' := by
  cases i with
  | verType => unfold HItem.assign; simp only; cases parseVerType v line <;> simp [bind, Except.bind, pure, Except.pure]
  | tofo => unfold HItem.assign; simp only; cases parseTofo v line <;> simp [bind, Except.bind, pure, Except.pure]
  | xyz => unfold HItem.assign; simp only; cases parseXyz line <;> simp [bind, Except.bind, pure, Except.pure]
  | interval => unfold HItem.assign; simp only; cases parseInterval v line <;> simp [bind, Except.bind, pure, Except.pure]

theorem parseHeaderGo_total {v : Nat} {ls : List Str} {items : List HItem} {h h' : HeaderVals} :
    (∀ e, parseHeaderGo v ls items h = .error e → parseHeaderGo v ls items h' = .error e) ∧
      ∀ x, parseHeaderGo v ls items h = .ok x → ∃ x', parseHeaderGo v ls items h' = .ok x' := by
  induction ls generalizing items h h' with
  | nil => simp [parseHeaderGo]
  | cons l ls ih =>
    simp only [parseHeaderGo]
    cases hf : items.find? (fun i => i.label = headerLabel l) with
    | none => exact ih
    | some i =>
      have ha := assign_total (v := v) (i := i) (line := l) (h := h) (h' := h')
      simp only
      cases h1 : i.assign v l h with
      | error e => simp only [error_bind, ha.1 e h1]; simp
      | ok x =>
        obtain ⟨x', hx'⟩ := ha.2 x h1
        rw [hx']
        exact ih

/-- the epochs yielded by a run -/
def epochsOf2 (ys : List (Rec2 × St2)) : List DateTime := ys.map (·.1.epoch)

theorem readSats_states {c : Cfg2} {st st' : St2} {t : DateTime} {prns ls : List Str} :
    (readSats c st t prns ls).2 = (readSats c st' t prns ls).2 ∧
    (st.preceding = some t → (readSats c st t prns ls).1 = []) ∧
    (st.preceding ≠ some t → st'.preceding ≠ some t → epochsOf2 (readSats c st t prns ls).1 = epochsOf2 (readSats c st' t prns ls).1) := by
  induction prns generalizing ls with
  | nil => simp [readSats]
  | cons p prns ih =>
    simp only [readSats]
    cases readSatLines c.lines ls with
    | error e => simp
    | ok x =>
      obtain ⟨data, l1⟩ := x
      simp only
      cases zipTypes c.types data [] with
      | error e => simp
      | ok d =>
        obtain ⟨h1, h2, h3⟩ := ih (ls := l1)
        simp only
        refine ⟨?_, fun h => ?_, fun h h' => ?_⟩
        · split <;> split <;> exact h1
        · rw [if_pos h]; exact h2 h
        · rw [if_neg h, if_neg h']
          have := h3 h h'
          simp only [epochsOf2, List.map_cons] at this ⊢
          rw [this]

/-- a turn of the reader: an error, an event, or an epoch - the same in every state -/
theorem readBlock_kind (c : Cfg2) (l : Str) (ls : List Str) :
    (∃ e, ∀ st, readBlock c st l ls = ([], .error e)) ∨
    (∃ r, ∀ st, ∃ h, readBlock c st l ls = ([], .ok (⟨h, st.preceding⟩, r))) ∨
    ∃ t prns l1, ∀ st, readBlock c st l ls = match readSats c st t prns l1 with
      | (ys, .error e) => (ys, .error e)
      | (ys, .ok r) => (ys, .ok ({ st with preceding := some t }, r)) := by
  unfold readBlock
  cases readEpoch (rstrip l) ls with
  | error e => exact .inl ⟨e, fun st => rfl⟩
  | ok x =>
    obtain ⟨ep, l1⟩ := x
    simp only
    by_cases h34 : ep.flag = 3 ∨ ep.flag = 4
    · simp only [h34, if_true]
      cases takeLines ep.num.toNat l1 with
      | error e => exact .inl ⟨e, fun st => rfl⟩
      | ok y =>
        obtain ⟨hl, l2⟩ := y
        simp only
        cases hp : parseHeader c.version hl .empty with
        | error e =>
          refine .inl ⟨e, fun st => ?_⟩
          have := (parseHeaderGo_total (h' := st.hdr)).1 e hp
          unfold parseHeader
          rw [this]
        | ok x =>
          refine .inr (.inl ⟨l2, fun st => ?_⟩)
          obtain ⟨x', hx'⟩ := (parseHeaderGo_total (h' := st.hdr)).2 x hp
          unfold parseHeader
          exact ⟨x', by rw [hx']⟩
    · simp only [h34, if_false]
      by_cases h1 : ep.flag > 1
      · simp only [h1, if_true]
        cases takeLines ep.num.toNat l1 with
        | error e => exact .inl ⟨e, fun st => rfl⟩
        | ok y => exact .inr (.inl ⟨y.2, fun st => ⟨st.hdr, rfl⟩⟩)
      · simp only [h1, if_false]
        cases ep.epoch with
        | none => exact .inl ⟨_, fun st => rfl⟩
        | some t => exact .inr (.inr ⟨t, ep.prns, l1, fun st => rfl⟩)

theorem epochs_same {c : Cfg2} (n : Nat) {st st' : St2} {ls : List Str} (hn : ls.length ≤ n) (hp : st.preceding = st'.preceding) :
    epochsOf2 (readRecords2 c st ls).yields = epochsOf2 (readRecords2 c st' ls).yields := by
  induction n generalizing st st' ls with
  | zero =>
    have : ls = [] := List.length_eq_zero_iff.1 (by omega)
    subst this; simp [readRecords2, readLoop]
  | succ n ih =>
    cases ls with
    | nil => simp [readRecords2, readLoop]
    | cons l ls =>
      rw [readRecords2_cons, readRecords2_cons]
      simp only [List.length_cons] at hn
      rcases readBlock_kind c l ls with ⟨e, h⟩ | ⟨r, h⟩ | ⟨t, prns, l1, h⟩
      · rw [h st, h st']
      · obtain ⟨h1, e1⟩ := h st
        obtain ⟨h2, e2⟩ := h st'
        have := readBlock_len e1
        rw [e1, e2]
        exact ih (by omega) hp
      · obtain ⟨q1, q2, q3⟩ := readSats_states (c := c) (st := st) (st' := st') (t := t) (prns := prns) (ls := l1)
        have q2' := (readSats_states (c := c) (st := st') (st' := st) (t := t) (prns := prns) (ls := l1)).2.1
        have q4 : epochsOf2 (readSats c st t prns l1).1 = epochsOf2 (readSats c st' t prns l1).1 := by
          by_cases hq : st.preceding = some t
          · rw [q2 hq, q2' (by rw [← hp]; exact hq)]
          · exact q3 hq (by rw [← hp]; exact hq)
        have e1 := h st
        rw [h st, h st']
        cases hr : readSats c st t prns l1 with
        | mk y r =>
          cases hr' : readSats c st' t prns l1 with
          | mk y' r' =>
            rw [hr, hr'] at q1 q4
            simp only at q1 q4
            subst q1
            cases r with
            | error e => exact q4
            | ok x =>
              rw [hr] at e1
              have := readBlock_len e1
              have hi := ih (st := { st with preceding := some t }) (st' := { st' with preceding := some t }) (ls := x) (by omega) rfl
              simp only [epochsOf2, List.map_append] at q4 hi ⊢
              rw [q4, hi]

theorem epochs_suffix {c : Cfg2} (n : Nat) {st st' : St2} {ls : List Str} (hn : ls.length ≤ n) (hp : st.preceding = none) :
    ∃ pre, epochsOf2 (readRecords2 c st ls).yields = pre ++ epochsOf2 (readRecords2 c st' ls).yields := by
  induction n generalizing st st' ls with
  | zero =>
    have : ls = [] := List.length_eq_zero_iff.1 (by omega)
    subst this; exact ⟨[], by simp [readRecords2, readLoop]⟩
  | succ n ih =>
    cases ls with
    | nil => exact ⟨[], by simp [readRecords2, readLoop]⟩
    | cons l ls =>
      rw [readRecords2_cons, readRecords2_cons]
      simp only [List.length_cons] at hn
      rcases readBlock_kind c l ls with ⟨e, h⟩ | ⟨r, h⟩ | ⟨t, prns, l1, h⟩
      · rw [h st, h st']; exact ⟨[], rfl⟩
      · obtain ⟨h1, e1⟩ := h st
        obtain ⟨h2, e2⟩ := h st'
        have := readBlock_len e1
        rw [e1, e2]
        exact ih (by omega) hp
      · obtain ⟨q1, -, q3⟩ := readSats_states (c := c) (st := st) (st' := st') (t := t) (prns := prns) (ls := l1)
        have q2 := (readSats_states (c := c) (st := st') (st' := st) (t := t) (prns := prns) (ls := l1)).2.1
        have q4 : ∃ pre, epochsOf2 (readSats c st t prns l1).1 = pre ++ epochsOf2 (readSats c st' t prns l1).1 ∧
            (pre = [] ∨ (readSats c st' t prns l1).1 = []) := by
          by_cases hq : st'.preceding = some t
          · rw [q2 hq]; exact ⟨_, (List.append_nil _).symm, .inr rfl⟩
          · exact ⟨[], q3 (by rw [hp]; simp) hq, .inl rfl⟩
        obtain ⟨pre, q4, q5⟩ := q4
        have e1 := h st
        rw [h st, h st']
        cases hr : readSats c st t prns l1 with
        | mk y r =>
          cases hr' : readSats c st' t prns l1 with
          | mk y' r' =>
            rw [hr, hr'] at q1 q4
            rw [hr'] at q5
            simp only at q1 q4 q5
            subst q1
            cases r with
            | error e => exact ⟨pre, q4⟩
            | ok x =>
              rw [hr] at e1
              have := readBlock_len e1
              have hi := epochs_same (c := c) x.length (st := { st with preceding := some t }) (st' := { st' with preceding := some t }) (ls := x) (Nat.le_refl _) rfl
              refine ⟨pre, ?_⟩
              simp only [epochsOf2, List.map_append] at q4 hi ⊢
              rw [q4, hi, List.append_assoc]

theorem subs_suffix (a l : List DateTime) : (subs l).length ≤ (subs (a ++ l)).length := by
  induction a with
  | nil => exact Nat.le_refl _
  | cons x a ih =>
    refine Nat.le_trans ih ?_
    cases h : a ++ l with
    | nil => simp [subs, h]
    | cons y m =>
      rw [List.cons_append, h, subs_cons_cons]
      split <;> simp

/-- ten changes of the epoch among the first yields decide -/
theorem collectDeltas_append {n : Nat} {ys more : List (Rec2 × St2)} {ep : Option DateTime} {acc : List Int} {st : St2} {d : List Int} {s : St2}
    (h : collectDeltas n ys ep acc st = .enough d s) : collectDeltas n (ys ++ more) ep acc st = .enough d s := by
  induction ys generalizing ep acc st with
  | nil => simp [collectDeltas] at h
  | cons y ys ih =>
    obtain ⟨r, s0⟩ := y
    simp only [List.cons_append, collectDeltas] at h ⊢
    cases ep with
    | none => exact ih h
    | some e =>
      simp only at h ⊢
      split at h
      · rw [if_pos ‹_›]; exact ih h
      · rw [if_neg ‹_›]
        split at h
        · rw [if_pos ‹_›]; exact ih h
        · rw [if_neg ‹_›]; exact h

theorem collectDeltas_enough {n : Nat} (hn : 0 < n) {ys : List (Rec2 × St2)} (st : St2) (h : n ≤ (subs (epochsOf2 ys)).length) :
    ∃ d s, collectDeltas n ys none [] st = .enough d s := by
  cases ys with
  | nil => simp [epochsOf2, subs] at h; omega
  | cons y ys =>
    obtain ⟨r, s0⟩ := y
    rcases collectDeltas_spec n ys r.epoch [] s0 (by simpa using hn) with ⟨h1, -⟩ | ⟨-, pre, r', st', post, -, -, -, h4⟩
    · simp only [List.length_nil, Nat.zero_add] at h1
      simp only [epochsOf2, List.map_cons] at h
      omega
    · exact ⟨_, _, by simpa [collectDeltas] using h4⟩

theorem getInterval_append {n : Nat} (hn : 0 < n) {st st' : St2} {run run' : Run2} {i : Int} (h : n ≤ (subs (epochsOf2 run.yields)).length)
    (hp : run.yields <+: run'.yields) (hi : getInterval n st run = .ok (i, st')) : getInterval n st run' = .ok (i, st') := by
  obtain ⟨d, s, hd⟩ := collectDeltas_enough hn st h
  obtain ⟨more, hm⟩ := hp
  unfold getInterval at hi ⊢
  rw [← hm, collectDeltas_append hd]
  rw [hd] at hi
  exact hi

theorem openObs2_tail {v : Nat} {A more : List Str} {o : Obs2} (hA : HeaderEnds A) (h : openObs2 v A = .ok o)
    (h10 : 10 ≤ (subs (epochsOf2 o.records.yields)).length) : openObs2 v (A ++ more) = .ok { o with rest := o.rest ++ more } := by
  obtain ⟨hdr, endl, body, rfl, hh, he⟩ := hA
  have he' : headerLabel endl = lblEnd := he
  have hs : ∀ b, splitHeader2 (hdr ++ endl :: b) = (hdr, b) := fun b => splitHeader2_spec hdr b endl hh (headerLabel_contains he')
  have hq : ∀ l ∈ hdr, headerLabel l ≠ lblEnd := by
    intro l hl hc
    have := headerLabel_contains hc
    rw [show contains lblEnd l = false from hh l hl] at this
    cases this
  have ha : ∀ b, afterHeader (hdr ++ endl :: b) = b := fun b => afterHeader_spec hdr b endl hq he'
  unfold openObs2 at h ⊢
  rw [List.append_assoc, List.cons_append, hs, ha]
  rw [hs, ha] at h
  simp only [bind_eq_ok, pure_eq_ok, Prod.exists] at h ⊢
  obtain ⟨types, ht, hv, hp, dt, st, hg, iv, hiv, rfl⟩ := h
  refine ⟨types, ht, hv, hp, dt, st, ?_, iv, hiv, rfl⟩
  refine getInterval_append (by omega) ?_ (readLoop_append _ _ _ _ more (Nat.le_refl _)) hg
  obtain ⟨pre, hs⟩ := epochs_suffix (c := ⟨v, types, linesPerRec types.length⟩) (st := ⟨hv, none⟩)
    (st' := { st with hdr := { st.hdr with interval := some iv } }) (ls := body) body.length (Nat.le_refl _) rfl
  rw [hs]
  exact Nat.le_trans h10 (subs_suffix _ _)

theorem records2_tail {o : Obs2} (more : List Str) : o.records.yields <+: ({ o with rest := o.rest ++ more } : Obs2).records.yields :=
  readLoop_append o.cfg _ o.st o.rest more (Nat.le_refl _)

/-! ## RINEX 3 -/

/-- the epochs of the regular epoch lines -/
def regs : List Str → List (Option DateTime)
  | [] => []
  | l :: ls =>
    match isEpochLine l with
    | .ok true =>
      match parseEpoch3 l with
      | .ok ep => if ep.flag > 1 then regs ls else ep.epoch :: regs ls
      | .error _ => regs ls
    | _ => regs ls

theorem nextEpoch3_regs {ls ls' : List Str} {cur e : Option DateTime} (h : nextEpoch3 ls cur = .ok (e, ls')) :
    regs ls = [] ∨ regs ls = e :: regs ls' ∧ ∀ more, nextEpoch3 (ls ++ more) cur = .ok (e, ls' ++ more) := by
  induction ls generalizing cur with
  | nil => exact .inl rfl
  | cons l ls ih =>
    simp only [nextEpoch3] at h
    simp only [regs, List.cons_append, nextEpoch3]
    cases hl : isEpochLine l with
    | error e => rw [hl] at h; cases h
    | ok b =>
      rw [hl] at h
      cases b with
      | false => exact ih h
      | true =>
        simp only at h ⊢
        cases hp : parseEpoch3 l with
        | error e => rw [hp] at h; cases h
        | ok ep =>
          rw [hp] at h
          simp only at h ⊢
          by_cases hf : ep.flag > 1
          · rw [if_pos hf] at h
            simp only [if_pos hf]
            exact ih h
          · rw [if_neg hf] at h
            simp only [if_neg hf]
            simp only [Except.ok.injEq, Prod.mk.injEq] at h
            obtain ⟨rfl, rfl⟩ := h
            exact .inr ⟨rfl, fun more => rfl⟩

theorem detLoop3_tail {fuel : Nat} {e0 e1 : Option DateTime} {ls : List Str} {r : Option DateTime × Option DateTime} (more : List Str)
    (h : detLoop3 fuel e0 e1 ls = some (.ok r)) (hd : ∃ b ∈ e1 :: regs ls, b ≠ e0) : detLoop3 fuel e0 e1 (ls ++ more) = some (.ok r) := by
  induction fuel generalizing e1 ls with
  | zero => exact h
  | succ n ih =>
    simp only [detLoop3] at h ⊢
    split at h
    · rename_i he
      rw [if_pos he]
      obtain ⟨b, hb, hbne⟩ := hd
      have hbm : b ∈ regs ls := by
        rcases List.mem_cons.1 hb with h1 | h1
        · exact absurd (h1.trans he.symm) hbne
        · exact h1
      cases hn : nextEpoch3 ls none with
      | error e => rw [hn] at h; cases h
      | ok x =>
        obtain ⟨e, l1⟩ := x
        rw [hn] at h
        rcases nextEpoch3_regs hn with h0 | ⟨h0, h1⟩
        · rw [h0] at hbm; cases hbm
        · rw [h1 more]
          exact ih h ⟨b, by rw [← h0]; exact hbm, hbne⟩
    · rw [if_neg ‹_›]; exact h

theorem detInterval3_tail {fuel : Nat} {body : List Str} {dt : Int} (more : List Str) (h : detInterval3 fuel body = some (.ok dt))
    (hd : ∃ a ∈ regs body, ∃ b ∈ regs body, a ≠ b) : detInterval3 fuel (body ++ more) = some (.ok dt) := by
  unfold detInterval3 at h ⊢
  obtain ⟨a, ha, b, hb, hab⟩ := hd
  cases hn : nextEpoch3 body none with
  | error e => rw [hn] at h; cases h
  | ok x =>
    obtain ⟨e0, l1⟩ := x
    rw [hn] at h
    rcases nextEpoch3_regs hn with h0 | ⟨h0, h1⟩
    · rw [h0] at ha; cases ha
    rw [h1 more]
    simp only at h ⊢
    have hd : ∃ b ∈ regs l1, b ≠ e0 := by
      rw [h0] at ha hb
      rcases List.mem_cons.1 ha with ha | ha
      · rcases List.mem_cons.1 hb with hb | hb
        · exact absurd (ha.trans hb.symm) hab
        · exact ⟨b, hb, fun hc => hab (ha.trans hc.symm)⟩
      · rcases List.mem_cons.1 hb with hb | hb
        · exact ⟨a, ha, fun hc => hab (hc.trans hb.symm)⟩
        · by_cases hc : a = e0
          · exact ⟨b, hb, fun hc' => hab (hc.trans hc'.symm)⟩
          · exact ⟨a, ha, hc⟩
    cases hn2 : nextEpoch3 l1 none with
    | error e => rw [hn2] at h; cases h
    | ok x =>
      obtain ⟨e1, l2⟩ := x
      rw [hn2] at h
      obtain ⟨b, hb, hbne⟩ := hd
      rcases nextEpoch3_regs hn2 with h2 | ⟨h2, h3⟩
      · rw [h2] at hb; cases hb
      rw [h3 more]
      simp only at h ⊢
      cases hl : detLoop3 fuel e0 e1 l2 with
      | none => rw [hl] at h; cases h
      | some r =>
        rw [hl] at h
        cases r with
        | error e => cases h
        | ok r =>
          rw [detLoop3_tail more hl ⟨b, by rw [← h2]; exact hb, hbne⟩]
          exact h

theorem step3_epoch {v : Nat} {chunks : List (Nat × Nat)} {line : Str} {l l' : Loc3} {o o' : Obj3} {y : Option Rec3}
    (h : step3 v chunks line l o = .ok (y, l', o')) (S : List (Option DateTime)) (hS : regs [line] ⊆ S)
    (hl : ∀ ep, l.ep = some ep → ep.flag ≤ 1 → ep.epoch ∈ S) :
    (∀ r, y = some r → r.epoch ∈ S) ∧ ∀ ep, l'.ep = some ep → ep.flag ≤ 1 → ep.epoch ∈ S := by
  unfold step3 at h
  split at h
  · cases h
  · rename_i hi
    split at h
    · cases h
    · rename_i ep hp
      cases h
      refine ⟨fun r hr => (by cases hr), fun ep' he hf => ?_⟩
      cases he
      refine hS ?_
      simp only [regs, hi, hp]
      rw [if_neg (by omega)]
      exact List.mem_singleton.2 rfl
  · split at h
    · cases h
    · rename_i ep hep
      split at h
      · rename_i hf
        unfold eventLine3 at h
        simp only at h
        generalize (if ep.num > 0 then ep.num - 1 else ep.num) = n at h
        generalize (if ep.num > 0 then l.special ++ [line] else l.special) = sp at h
        have key : ∀ n : Int, ∀ ep' : Epoch3, some { ep with num := n } = some ep' → ep'.flag ≤ 1 → ep'.epoch ∈ S := by
          intro n ep' he hf'
          cases he
          exact absurd hf' (by show ¬ ep.flag ≤ 1; omega)
        split at h
        · split at h
          · cases h
          · cases h; exact ⟨fun r hr => (by cases hr), key _⟩
        · cases h; exact ⟨fun r hr => (by cases hr), key _⟩
      · rename_i hf
        have hm := hl ep hep (by omega)
        unfold dataLine3 at h
        have hepo : (if ep.flag = 1 then { ep with flag := 0 } else ep).epoch = ep.epoch := by split <;> rfl
        generalize (if ep.flag = 1 then { ep with flag := 0 } else ep) = ep2 at h hepo
        rw [← hepo] at hm
        split at h
        · split at h
          · cases h
          · split at h
            · cases h
            · split at h
              · cases h
              · split at h
                · cases h
                · cases h
                  refine ⟨fun r hr => ?_, fun ep' he _ => ?_⟩
                  · cases hr; exact hm
                  · cases he; exact hm
        · cases h
          refine ⟨fun r hr => (by cases hr), fun ep' he _ => ?_⟩
          cases he; exact hm

theorem regs_cons (l : Str) (ls : List Str) : regs (l :: ls) = regs [l] ++ regs ls := by
  simp only [regs]
  split
  · split
    · split <;> rfl
    · rfl
  · rfl

theorem readLoop3_epochs {v : Nat} {chunks : List (Nat × Nat)} {ls : List Str} {l : Loc3} {o : Obj3} (S : List (Option DateTime)) (hS : regs ls ⊆ S)
    (hl : ∀ ep, l.ep = some ep → ep.flag ≤ 1 → ep.epoch ∈ S) : ∀ y ∈ (readLoop3 v chunks ls l o).yields, y.1.epoch ∈ S := by
  induction ls generalizing l o with
  | nil => intro y hy; cases hy
  | cons line ls ih =>
    rw [regs_cons] at hS
    simp only [readLoop3]
    cases hs : step3 v chunks line l o with
    | error e => intro y hy; cases hy
    | ok x =>
      obtain ⟨y0, l1, o1⟩ := x
      obtain ⟨h1, h2⟩ := step3_epoch hs S (fun a ha => hS (List.mem_append.2 (.inl ha))) hl
      have hi := ih (l := l1) (o := o1) (fun a ha => hS (List.mem_append.2 (.inr ha))) h2
      cases y0 with
      | none => exact hi
      | some r =>
        intro y hy
        rcases List.mem_cons.1 hy with rfl | hy
        · exact h1 r rfl
        · exact hi y hy

theorem readLoop3_tail {v : Nat} {chunks : List (Nat × Nat)} {ls : List Str} {l : Loc3} {o : Obj3} (more : List Str) :
    (readLoop3 v chunks ls l o).yields <+: (readLoop3 v chunks (ls ++ more) l o).yields := by
  induction ls generalizing l o with
  | nil => exact List.nil_prefix
  | cons line ls ih =>
    simp only [readLoop3, List.cons_append]
    cases step3 v chunks line l o with
    | error e => exact List.nil_prefix
    | ok x =>
      obtain ⟨y0, l1, o1⟩ := x
      simp only
      cases y0 with
      | none => exact ih
      | some r => exact List.cons_prefix_cons.2 ⟨rfl, ih⟩

theorem openObs3_tail {v fuel : Nat} {A more : List Str} {o : Obs3} (hA : HeaderEnds A) (h : openObs3 v fuel A = some (.ok o))
    (h2 : ∃ y ∈ o.records.yields, ∃ z ∈ o.records.yields, y.1.epoch ≠ z.1.epoch) : openObs3 v fuel (A ++ more) = some (.ok { o with rest := o.rest ++ more }) := by
  obtain ⟨hdr, endl, body, rfl, hh, he⟩ := hA
  have he' : headerLabel endl = lblEnd := he
  have hq : ∀ l ∈ hdr, headerLabel l ≠ lblEnd := by
    intro l hl hc
    have := headerLabel_contains hc
    rw [show contains lblEnd l = false from hh l hl] at this
    cases this
  have hs : ∀ b, splitHeader3 (hdr ++ endl :: b) = (hdr, b) := fun b => splitHeader3_spec hdr b endl hq he'
  have ha : ∀ b, afterHeader (hdr ++ endl :: b) = b := fun b => afterHeader_spec hdr b endl hq he'
  unfold openObs3 at h ⊢
  rw [List.append_assoc, List.cons_append, hs, ha]
  rw [hs, ha] at h
  simp only at h ⊢
  split at h
  · cases h
  rename_i ob hob
  split at h
  · cases h
  · cases h
  rename_i dt hdt
  have hrest : o.rest = body := by
    split at h
    · cases h
    · split at h
      · cases h
      · cases h; rfl
  have hr : ∃ a ∈ regs body, ∃ b ∈ regs body, a ≠ b := by
    obtain ⟨y, hy, z, hz, hyz⟩ := h2
    have hk := readLoop3_epochs (v := o.version) (chunks := o.chunks) (ls := o.rest) (l := ⟨none, []⟩) (o := o.obj) (regs body)
      (by rw [hrest]; exact fun _ h => h) (by intro ep h; cases h)
    exact ⟨_, hk y hy, _, hk z hz, hyz⟩
  rw [detInterval3_tail more hdt hr]
  simp only
  split at h
  · cases h
  · split at h
    · cases h
    · cases h
      rfl

/-! ## what the main loop sees -/

theorem allOf_prefix {α β : Type} {f : α → Option β} {l l' : List α} {r r' : List β} (hp : l <+: l') (h : allOf f l = some r) (h' : allOf f l' = some r') :
    r <+: r' := by
  induction l generalizing l' r r' with
  | nil => cases h; exact List.nil_prefix
  | cons a l ih =>
    obtain ⟨t, rfl⟩ := hp
    simp only [List.cons_append, allOf, Option.bind_eq_some_iff, Option.map_eq_some_iff] at h h'
    obtain ⟨b, hb, x, hx, rfl⟩ := h
    obtain ⟨b', hb', x', hx', rfl⟩ := h'
    rw [hb] at hb'
    cases hb'
    exact List.cons_prefix_cons.2 ⟨rfl, ih (List.prefix_append _ _) hx hx'⟩

theorem obsIn_tail {path : Str} {h : HeaderVals} {items items' : List ObsItem} {stop stop' : Except PyErr Unit} {o : ObsIn} (hp : items <+: items')
    (ho : obsIn path h items stop = some (.ok o)) : ∃ o', obsIn path h items' stop' = some (.ok o') ∧ Continues o o' := by
  obtain ⟨extra, rfl⟩ := hp
  unfold obsIn at ho ⊢
  cases hv : h.verType with
  | none => rw [hv] at ho; cases ho
  | some x =>
    obtain ⟨a, b, sys⟩ := x
    rw [hv] at ho
    simp only [Option.bind_eq_some_iff, Option.map_eq_some_iff] at ho ⊢
    obtain ⟨p, hp, i, hi, ho⟩ := ho
    refine ⟨_, ⟨p, hp, i, hi, rfl⟩, ?_⟩
    cases ho
    exact ⟨extra, stop', rfl⟩

theorem items2_epochs {types : List Str} {ys : List (Rec2 × St2)} {items : List ObsItem} (h : allOf (itemOf2 types) ys = some items) :
    items.filterMap (·.epoch) = epochsOf2 ys := by
  induction ys generalizing items with
  | nil => cases h; rfl
  | cons y ys ih =>
    simp only [allOf, Option.bind_eq_some_iff, Option.map_eq_some_iff] at h
    obtain ⟨b, hb, x, hx, rfl⟩ := h
    unfold itemOf2 at hb
    simp only [Option.bind_eq_some_iff, Option.map_eq_some_iff] at hb
    obtain ⟨r, -, p, -, rfl⟩ := hb
    simp only [List.filterMap_cons, epochsOf2, List.map_cons, List.cons.injEq, true_and]
    exact ih hx

theorem items3_epochs {ys : List (Rec3 × Obj3)} {items : List ObsItem} (h : allOf itemOf3 ys = some items) {t : DateTime} (ht : t ∈ items.filterMap (·.epoch)) :
    ∃ y ∈ ys, y.1.epoch = some t := by
  obtain ⟨it, hit, he⟩ := List.mem_filterMap.1 ht
  obtain ⟨y, hy, hy2⟩ := allOf_mem h it hit
  unfold itemOf3 at hy2
  simp only [Option.bind_eq_some_iff, Option.map_eq_some_iff] at hy2
  obtain ⟨r, -, p, -, rfl⟩ := hy2
  exact ⟨y, hy, he⟩

theorem two_of_spacings {l : List DateTime} (h : 1 ≤ (spacings l).length) : ∃ a ∈ l, ∃ b ∈ l, a ≠ b := by
  unfold spacings at h
  rw [List.length_map] at h
  obtain ⟨p, hp⟩ := List.exists_mem_of_length_pos (by omega : 0 < ((l.zip l.tail).filter fun p => p.1 ≠ p.2).length)
  obtain ⟨h1, h2⟩ := List.mem_filter.1 hp
  have h3 := List.of_mem_zip (show (p.1, p.2) ∈ l.zip l.tail from h1)
  exact ⟨p.1, h3.1, p.2, List.mem_of_mem_tail h3.2, by simpa using h2⟩

/-- the lines of a file that can be opened go on: the items come first -/
theorem obsFile_tail {D D' : Disk} {fuel : Nat} {path : Str} {A more : List Str} {o : ObsIn} {r : Except PyErr ObsIn} (hf : fetchObs D path = .ok A)
    (hf' : fetchObs D' path = .ok (A ++ more)) (hA : HeaderEnds A) (h : obsFile D fuel path = some (.ok o))
    (h10 : 10 ≤ epochChanges o.items ∨ 1 ≤ epochChanges o.items ∧ ∃ v, obsVersion (A.headD []) = .ok v ∧ 300 ≤ v)
    (h' : obsFile D' fuel path = some r) : ∃ o', r = .ok o' ∧ Continues o o' := by
  have hfl : Model.firstLine (A ++ more) = Model.firstLine A := by
    obtain ⟨hdr, endl, body, rfl, -, -⟩ := hA
    unfold Model.firstLine
    cases hdr <;> rfl
  unfold obsFile at h h'
  rw [hf] at h
  rw [hf'] at h'
  simp only [hfl] at h h'
  split at h
  · cases h
  · rename_i v hv
    split at h
    · rename_i hlt
      have hten : 10 ≤ epochChanges o.items := by
        rcases h10 with h10 | ⟨-, w, hw, h3⟩
        · exact h10
        · rw [show obsVersion (Model.firstLine A) = .ok w from hw] at hv
          cases hv; omega
      split at h
      · cases h
      · rename_i o2 ho
        unfold obsIn2 at h
        simp only [Option.bind_eq_some_iff] at h
        obtain ⟨items, hi, h⟩ := h
        have hit : o.items = items := (obsIn_some h).2.2.2
        have hl : ∀ t ∈ epochsOf2 o2.records.yields, Legal t := by
          intro t ht
          obtain ⟨y, hy, rfl⟩ := List.mem_map.1 ht
          exact readRecords2_legal o2.cfg _ o2.st o2.rest (Nat.le_refl _) y hy
        have hten2 : 10 ≤ (subs (epochsOf2 o2.records.yields)).length := by
          rw [subs_eq_spacings hl, ← items2_epochs hi, ← hit]; exact hten
        rw [hv] at h'
        simp only [if_pos hlt] at h'
        rw [openObs2_tail hA ho hten2] at h'
        simp only at h'
        unfold obsIn2 at h'
        simp only [Option.bind_eq_some_iff] at h'
        obtain ⟨items', hi', h'⟩ := h'
        obtain ⟨o', ho', hc⟩ := obsIn_tail (allOf_prefix (records2_tail more) hi hi') h
        rw [ho'] at h'
        cases h'
        exact ⟨o', rfl, hc⟩
    · rename_i hge
      have hone : 1 ≤ epochChanges o.items := by
        rcases h10 with h10 | ⟨h1, -⟩
        · omega
        · exact h1
      split at h
      · cases h
      · cases h
      · rename_i o3 ho
        unfold obsIn3 at h
        simp only [Option.bind_eq_some_iff] at h
        obtain ⟨items, hi, h⟩ := h
        have hit : o.items = items := (obsIn_some h).2.2.2
        have htwo : ∃ y ∈ o3.records.yields, ∃ z ∈ o3.records.yields, y.1.epoch ≠ z.1.epoch := by
          obtain ⟨a, ha, b, hb, hab⟩ := two_of_spacings hone
          rw [hit] at ha hb
          obtain ⟨y, hy, hya⟩ := items3_epochs hi ha
          obtain ⟨z, hz, hzb⟩ := items3_epochs hi hb
          exact ⟨y, hy, z, hz, by rw [hya, hzb]; intro hc; cases hc; exact hab rfl⟩
        rw [hv] at h'
        simp only [if_neg hge] at h'
        rw [openObs3_tail hA ho htwo] at h'
        simp only at h'
        unfold obsIn3 at h'
        simp only [Option.bind_eq_some_iff] at h'
        obtain ⟨items', hi', h'⟩ := h'
        obtain ⟨o', ho', hc⟩ := obsIn_tail (allOf_prefix (readLoop3_tail more) hi hi') h
        rw [ho'] at h'
        cases h'
        exact ⟨o', rfl, hc⟩

end Verif.Proofs
