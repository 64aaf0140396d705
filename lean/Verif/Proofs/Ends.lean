import Verif.Spec.Ends
import Verif.Proofs.Output
import Verif.Props.Interval3
/-!
# Runs end: lemmas
-/
namespace Verif.Proofs
open Verif.Py Verif.Model Verif.Spec Verif.Props

/-! ## texts without `inf` and `nan` -/

theorem _root_.Verif.Spec.Plain.infix {a b : Str} (h : Plain b) (hi : a <:+: b) : Plain a := by
  have : lower a <:+: lower b := by
    obtain ⟨s, t, rfl⟩ := hi
    exact ⟨lower s, lower t, by simp [lower]⟩
  exact ⟨fun x => h.1 (x.trans this), fun x => h.2 (x.trans this)⟩

theorem rstrip_infix (s : Str) : rstrip s <:+: s := by
  obtain ⟨t, ht, -⟩ := rstrip_decomp s
  exact ⟨[], t, by simpa using ht.symm⟩

theorem lstrip_infix (s : Str) : lstrip s <:+: s := (List.dropWhile_suffix _).isInfix

theorem strip_infix (s : Str) : strip s <:+: s := (lstrip_infix _).trans (rstrip_infix s)

theorem slice_infix (s : Str) (a b : Nat) : slice s a b <:+: s := (List.take_prefix _ _).isInfix.trans (List.drop_suffix _ _).isInfix

theorem parseSign_infix (s : Str) : (parseSign s).2 <:+: s := by
  cases s with
  | nil => exact ⟨[], [], rfl⟩
  | cons c s =>
    simp only [parseSign]
    split
    · exact (List.suffix_cons c s).isInfix
    · split
      · exact (List.suffix_cons c s).isInfix
      · exact List.infix_refl _

theorem parseFloat_plain {s : Str} (h : Plain s) {v : PyFloat} (hv : parseFloat s = some v) : ∃ q, v = .fin q := by
  have h' := h.infix ((parseSign_infix _).trans (strip_infix s))
  unfold parseFloat at hv
  generalize parseSign (strip s) = p at hv h'
  obtain ⟨neg, r⟩ := p
  simp only at hv h'
  split at hv
  · rename_i hi
    exfalso
    apply h'.1
    rcases hi with hi | hi
    · rw [hi]
    · rw [hi]; exact ⟨[], c% "inity", rfl⟩
  · split at hv
    · rename_i hi
      exfalso
      apply h'.2
      rw [hi]
    · obtain ⟨q, -, rfl⟩ := Option.map_eq_some_iff.1 hv
      exact ⟨_, rfl⟩

theorem pyFloat_plain {s : Str} (h : Plain s) {v : PyFloat} (hv : pyFloat s = .ok v) : ∃ q, v = .fin q := by
  unfold pyFloat at hv
  split at hv
  · rename_i hp; cases hv; exact parseFloat_plain h hp
  · cases hv

/-! ## positions -/

/-- the position of the header is finite -/
def FinHdr (h : HeaderVals) : Prop := ∃ p, Model.posOf h.xyz = some p

theorem mapFloat_plain (l : List Str) : (∀ s ∈ l, Plain s) → ∀ r, mapFloat l = .ok r → r.length = l.length ∧ ∀ v ∈ r, ∃ q, v = .fin q := by
  induction l with
  | nil => intro _ r h; cases h; simp
  | cons s l ih =>
    intro hp r h
    simp only [mapFloat, bind_eq_ok, pure_eq_ok] at h
    obtain ⟨v, hv, t, ht, rfl⟩ := h
    obtain ⟨h1, h2⟩ := ih (fun x hx => hp x (by simp [hx])) t ht
    refine ⟨by simp [h1], ?_⟩
    intro x hx
    rcases List.mem_cons.1 hx with rfl | hx
    · exact pyFloat_plain (hp s (by simp)) hv
    · exact h2 x hx

theorem posOf_three {r : List PyFloat} (hl : r.length = 3) (h : ∀ v ∈ r, ∃ q, v = .fin q) : ∃ p, Model.posOf r = some p := by
  match r, hl with
  | [a, b, c], _ =>
    obtain ⟨x, rfl⟩ := h a (by simp)
    obtain ⟨y, rfl⟩ := h b (by simp)
    obtain ⟨z, rfl⟩ := h c (by simp)
    exact ⟨_, rfl⟩

theorem parseXyz_plain {l : Str} (h : Plain l) {r : Xyz} (hr : parseXyz l = .ok r) : ∃ p, Model.posOf r = some p := by
  unfold parseXyz at hr
  obtain ⟨h1, h2⟩ := mapFloat_plain _ (by
    intro s hs
    obtain ⟨i, -, rfl⟩ := List.mem_map.1 hs
    exact h.infix (slice_infix ..)) r hr
  exact posOf_three h1 h2

/-- a line that does not make the position infinite -/
def PosPlain (l : Str) : Prop := headerLabel l = lblXyz → Plain l

theorem _root_.Verif.Spec.Plain.pos {l : Str} (h : Plain l) : PosPlain l := fun _ => h

theorem assign_fin {v : Nat} {i : HItem} {line : Str} {h h' : HeaderVals} (hp : i.label = headerLabel line) (hl : PosPlain line) (hf : FinHdr h)
    (ha : i.assign v line h = .ok h') : FinHdr h' := by
  cases i <;> simp only [HItem.assign, bind, Except.bind] at ha <;> split at ha <;> first | cases ha; done | skip
  · cases ha; exact hf
  · cases ha; exact hf
  · rename_i u hu
    cases ha
    exact parseXyz_plain (hl hp.symm) hu
  · cases ha; exact hf

theorem parseHeaderGo_fin (v : Nat) (ls : List Str) (hl : ∀ l ∈ ls, PosPlain l) : ∀ items h h', FinHdr h → parseHeaderGo v ls items h = .ok h' → FinHdr h' := by
  induction ls with
  | nil => intro items h h' hf hh; cases hh; exact hf
  | cons line ls ih =>
    intro items h h' hf hh
    have ih := ih fun l hx => hl l (by simp [hx])
    simp only [parseHeaderGo] at hh
    split at hh
    · exact ih _ _ _ hf hh
    · rename_i i hi
      cases ha : i.assign v line h with
      | error e => rw [ha] at hh; cases hh
      | ok h1 =>
        rw [ha] at hh
        refine ih _ _ _ (assign_fin ?_ (hl line (by simp)) hf ha) hh
        simpa using List.find?_some hi

theorem empty_fin : FinHdr .empty := ⟨_, rfl⟩

/-! ## RINEX 2 -/

theorem takeLines_sub {k : Nat} : ∀ {ls r ls' : List Str}, takeLines k ls = .ok (r, ls') → (∀ l ∈ r, ∃ l0 ∈ ls, l = rstrip l0) ∧ ∀ l ∈ ls', l ∈ ls := by
  induction k with
  | zero => intro ls r ls' h; cases h; exact ⟨by simp, by simp⟩
  | succ k ih =>
    intro ls r ls' h
    cases ls with
    | nil => cases h
    | cons l ls =>
      simp only [takeLines, nextRec, bind_eq_ok, pure_eq_ok] at h
      obtain ⟨p, hp, q, hq, h⟩ := h
      cases hp
      obtain ⟨r1, l1⟩ := q
      cases h
      obtain ⟨h1, h2⟩ := ih hq
      refine ⟨?_, fun x hx => by simp [h2 x hx]⟩
      intro x hx
      rcases List.mem_cons.1 hx with rfl | hx
      · exact ⟨l, by simp, rfl⟩
      · obtain ⟨l0, a, b⟩ := h1 x hx; exact ⟨l0, by simp [a], b⟩

theorem fullPrnLines_sub {k : Nat} : ∀ {ls r ls' : List Str}, fullPrnLines k ls = .ok (r, ls') → ∀ l ∈ ls', l ∈ ls := by
  induction k with
  | zero => intro ls r ls' h; cases h; simp
  | succ k ih =>
    intro ls r ls' h
    cases ls with
    | nil => cases h
    | cons l ls =>
      simp only [fullPrnLines, nextRec, bind_eq_ok, pure_eq_ok] at h
      obtain ⟨p, hp, q, hq, w, hw, h⟩ := h
      cases hp
      obtain ⟨r1, l1⟩ := w
      cases h
      exact fun x hx => by simp [ih hw x hx]

theorem readPrns_sub {ep : Str} {n : Int} {ls r ls' : List Str} (h : readPrns ep n ls = .ok (r, ls')) : ∀ l ∈ ls', l ∈ ls := by
  unfold readPrns at h
  split at h
  · simp only [bind_eq_ok] at h
    obtain ⟨p0, -, ⟨p1, l1⟩, h1, h⟩ := h
    have s1 := fullPrnLines_sub h1
    split at h
    · cases l1 with
      | nil => cases h
      | cons x l1 =>
        simp only [nextRec, bind_eq_ok, pure_eq_ok] at h
        obtain ⟨q, hq, p2, -, h⟩ := h
        cases hq
        cases h
        exact fun y hy => s1 y (by simp [hy])
    · cases h; exact s1
  · simp only [bind_eq_ok, pure_eq_ok] at h
    obtain ⟨p, -, h⟩ := h
    cases h
    simp

theorem readEpoch_sub {ep : Str} {ls ls' : List Str} {e : Epoch2} (h : readEpoch ep ls = .ok (e, ls')) : ∀ l ∈ ls', l ∈ ls := by
  unfold readEpoch at h
  split at h
  · cases h
  split at h
  · split at h
    · cases h
    · cases h; simp
  · simp only [bind_eq_ok] at h
    obtain ⟨t, -, h⟩ := h
    split at h
    · cases h
    · simp only [bind_eq_ok] at h
      obtain ⟨⟨prns, l1⟩, hp, h⟩ := h
      split at h
      · cases h
      · cases h
        exact readPrns_sub hp

/-- a value of the model of the main loop -/
def FinVal (v : ObsVal) : Prop := v.1 = none ∨ ∃ q, v.1 = some (.fin q)

theorem getVal_fin {rec : Str} (h : Plain rec) {i n : Nat} {v : ObsVal} (hv : getVal rec i n = .ok v) : FinVal v := by
  unfold getVal at hv
  simp only at hv
  split at hv
  · split at hv
    · cases hv
    · rename_i x hx
      cases hv
      obtain ⟨q, rfl⟩ := parseFloat_plain (h.infix ((List.take_prefix _ _).isInfix.trans (slice_infix ..))) hx
      exact .inr ⟨q, rfl⟩
  · cases hv; exact .inl rfl

theorem readFields_fin {rec : Str} (h : Plain rec) : ∀ (is : List Nat) (vs : List ObsVal), readFields rec is = .ok vs → ∀ v ∈ vs, FinVal v := by
  intro is
  induction is with
  | nil => intro vs hv; cases hv; simp
  | cons i is ih =>
    intro vs hv
    simp only [readFields, bind_eq_ok, pure_eq_ok] at hv
    obtain ⟨v, hv, ws, hw, rfl⟩ := hv
    intro x hx
    rcases List.mem_cons.1 hx with rfl | hx
    · exact getVal_fin h hv
    · exact ih ws hw x hx

theorem readSatLines_fin : ∀ (ns : List Nat) {ls ls' : List Str} {r : List ObsVal}, (∀ l ∈ ls, Plain l) → readSatLines ns ls = .ok (r, ls') →
    (∀ v ∈ r, FinVal v) ∧ ∀ l ∈ ls', l ∈ ls := by
  intro ns
  induction ns with
  | nil => intro ls ls' r _ h; cases h; simp
  | cons n ns ih =>
    intro ls ls' r hp h
    cases ls with
    | nil => cases h
    | cons l ls =>
      simp only [readSatLines, nextRec, bind_eq_ok, pure_eq_ok] at h
      obtain ⟨p, hq, vs, hv, ⟨ws, l1⟩, hw, h⟩ := h
      cases hq
      cases h
      obtain ⟨h1, h2⟩ := ih (fun x hx => hp x (by simp [hx])) hw
      refine ⟨?_, fun x hx => by simp [h2 x hx]⟩
      intro v hv'
      rcases List.mem_append.1 hv' with hv' | hv'
      · exact readFields_fin ((hp l (by simp)).infix (rstrip_infix l)) _ _ hv v hv'
      · exact h1 v hv'

/-- the dictionary of a record has finite values only -/
def FinDict (d : ObsDict) : Prop := ∀ p ∈ d, FinVal p.2

theorem dict_set_mem {α β : Type} [DecidableEq α] (d : Dict α β) (a : α) (b : β) : ∀ p ∈ d.set a b, p ∈ d ∨ p = (a, b) := by
  induction d with
  | nil => intro p hp; simp [Dict.set] at hp; exact .inr hp
  | cons q d ih =>
    obtain ⟨x, y⟩ := q
    intro p hp
    simp only [Dict.set] at hp
    split at hp
    · rename_i he
      rcases List.mem_cons.1 hp with rfl | hp
      · right; rw [he]
      · left; simp [hp]
    · rcases List.mem_cons.1 hp with rfl | hp
      · left; simp
      · rcases ih p hp with h | h
        · left; simp [h]
        · exact .inr h

theorem zipTypes_fin : ∀ (ts : List Str) (vs : List ObsVal) (d d' : ObsDict), (∀ v ∈ vs, FinVal v) → FinDict d → zipTypes ts vs d = .ok d' → FinDict d' := by
  intro ts
  induction ts with
  | nil =>
    intro vs d d' hv hd h
    cases vs with
    | nil => simp [zipTypes] at h; cases h; exact hd
    | cons => cases h
  | cons t ts ih =>
    intro vs d d' hv hd h
    cases vs with
    | nil => simp [zipTypes] at h; cases h; exact hd
    | cons v vs =>
      refine ih vs _ d' (fun x hx => hv x (by simp [hx])) ?_ h
      intro p hp
      rcases dict_set_mem d t v p hp with hp | rfl
      · exact hd p hp
      · exact hv v (by simp)

theorem recOf2_fin : ∀ (d : ObsDict), FinDict d → ∃ r, recOf2 d = some r := by
  intro d
  induction d with
  | nil => intro _; exact ⟨_, rfl⟩
  | cons p d ih =>
    intro h
    obtain ⟨r, hr⟩ := ih fun q hq => h q (by simp [hq])
    obtain ⟨t, v, i, j⟩ := p
    rcases h _ (List.mem_cons_self ..) with h | ⟨q, h⟩ <;> simp only at h <;> subst h
    · exact ⟨_, by simp [recOf2, hr]; rfl⟩
    · exact ⟨_, by simp [recOf2, ratOf, hr]; rfl⟩

theorem readSats_fin (c : Cfg2) (st : St2) (t : DateTime) (prns : List Str) : ∀ ls, (∀ l ∈ ls, Plain l) →
    (∀ y ∈ (readSats c st t prns ls).1, FinDict y.1.data) ∧ ∀ ls', (readSats c st t prns ls).2 = .ok ls' → ∀ l ∈ ls', l ∈ ls := by
  induction prns with
  | nil => intro ls _; exact ⟨fun y hy => (by cases hy), fun ls' h => by cases h; simp⟩
  | cons p prns ih =>
    intro ls hp
    simp only [readSats]
    cases hs : readSatLines c.lines ls with
    | error e => exact ⟨fun y hy => (by cases hy), fun ls' h => by cases h⟩
    | ok x =>
      obtain ⟨data, l1⟩ := x
      obtain ⟨f1, f2⟩ := readSatLines_fin c.lines hp hs
      cases hz : zipTypes c.types data [] with
      | error e => exact ⟨fun y hy => (by simp [hz] at hy), fun ls' h => by simp [hz] at h⟩
      | ok d =>
        obtain ⟨i1, i2⟩ := ih l1 fun l hl => hp l (f2 l hl)
        have hd : FinDict d := zipTypes_fin _ _ _ _ f1 (fun p hp => by cases hp) hz
        simp only [hz]
        split
        · exact ⟨i1, fun ls' h l hl => f2 l (i2 ls' h l hl)⟩
        · refine ⟨?_, fun ls' h l hl => f2 l (i2 ls' h l hl)⟩
          intro y hy
          rcases List.mem_cons.1 hy with rfl | hy
          · exact hd
          · exact i1 y hy

theorem rstrip_label (l : Str) (h : headerLabel (rstrip l) = lblXyz) : headerLabel l = lblXyz := by
  unfold headerLabel at h ⊢
  obtain ⟨t, ht, hs⟩ := rstrip_decomp l
  generalize rstrip l = a at ht h
  subst ht
  rw [List.drop_append]
  rw [rstrip_append_space _ _ (fun c hc => hs c (List.mem_of_mem_drop hc))]
  exact h

theorem readBlock_fin {c : Cfg2} {st : St2} {line : Str} {ls : List Str} (hp : ∀ l ∈ ls, Plain l) (hf : FinHdr st.hdr) :
    (∀ y ∈ (readBlock c st line ls).1, FinDict y.1.data) ∧
      ∀ st' ls', (readBlock c st line ls).2 = .ok (st', ls') → FinHdr st'.hdr ∧ ∀ l ∈ ls', l ∈ ls := by
  unfold readBlock
  cases he : readEpoch (rstrip line) ls with
  | error e => exact ⟨fun y hy => (by cases hy), fun st' ls' h => by cases h⟩
  | ok x =>
    obtain ⟨ep, l1⟩ := x
    have hs := readEpoch_sub he
    simp only
    split
    · cases ht : takeLines ep.num.toNat l1 with
      | error e => exact ⟨fun y hy => (by cases hy), fun st' ls' h => by cases h⟩
      | ok x =>
        obtain ⟨hl, l2⟩ := x
        obtain ⟨t1, t2⟩ := takeLines_sub ht
        simp only
        cases hh : parseHeader c.version hl st.hdr with
        | error e => exact ⟨fun y hy => (by cases hy), fun st' ls' h => by cases h⟩
        | ok h =>
          refine ⟨fun y hy => (by cases hy), fun st' ls' hx => ?_⟩
          cases hx
          refine ⟨parseHeaderGo_fin _ _ ?_ _ _ _ hf hh, fun l hl => hs l (t2 l hl)⟩
          intro l hl
          obtain ⟨l0, a, rfl⟩ := t1 l hl
          exact ((hp l0 (hs l0 a)).infix (rstrip_infix l0)).pos
    · split
      · cases ht : takeLines ep.num.toNat l1 with
        | error e => exact ⟨fun y hy => (by cases hy), fun st' ls' h => by cases h⟩
        | ok x =>
          obtain ⟨hl, l2⟩ := x
          obtain ⟨t1, t2⟩ := takeLines_sub ht
          refine ⟨fun y hy => (by cases hy), fun st' ls' hx => ?_⟩
          cases hx
          exact ⟨hf, fun l hl => hs l (t2 l hl)⟩
      · split
        · exact ⟨fun y hy => (by cases hy), fun st' ls' h => by cases h⟩
        · rename_i t _
          obtain ⟨r1, r2⟩ := readSats_fin c st t ep.prns l1 fun l hl => hp l (hs l hl)
          generalize readSats c st t ep.prns l1 = rs at r1 r2
          obtain ⟨ys, r⟩ := rs
          cases r with
          | error e => exact ⟨r1, fun st' ls' h => by cases h⟩
          | ok l2 =>
            refine ⟨r1, fun st' ls' h => ?_⟩
            cases h
            exact ⟨hf, fun l hl => hs l (r2 l2 rfl l hl)⟩

theorem readLoop_fin (c : Cfg2) (fuel : Nat) : ∀ st ls, (∀ l ∈ ls, Plain l) → FinHdr st.hdr →
    (∀ y ∈ (readLoop c fuel st ls).yields, FinDict y.1.data ∧ FinHdr y.2.hdr) ∧ ∀ st', (readLoop c fuel st ls).stop = .ok st' → FinHdr st'.hdr := by
  induction fuel with
  | zero =>
    intro st ls _ h
    cases ls with
    | nil => exact ⟨fun y hy => (by cases hy), fun st' h' => (by cases h'; exact h)⟩
    | cons => exact ⟨fun y hy => (by cases hy), fun st' h' => (by cases h'; exact h)⟩
  | succ n ih =>
    intro st ls hp h
    cases ls with
    | nil => exact ⟨fun y hy => (by cases hy), fun st' h' => (by cases h'; exact h)⟩
    | cons line ls =>
      simp only [readLoop]
      have hy1 := @readBlock_yields c st line ls
      obtain ⟨b1, b2⟩ := readBlock_fin (c := c) (line := line) (fun l (hl : l ∈ ls) => hp l (by simp [hl])) h
      generalize readBlock c st line ls = rb at hy1 b1 b2
      obtain ⟨ys, r⟩ := rb
      have hys : ∀ y ∈ ys, FinDict y.1.data ∧ FinHdr y.2.hdr := fun y hy => ⟨b1 y hy, by rw [hy1 y hy]; exact h⟩
      cases r with
      | error e => exact ⟨hys, fun st' h' => (by cases h')⟩
      | ok r =>
        obtain ⟨st1, ls1⟩ := r
        obtain ⟨c1, c2⟩ := b2 st1 ls1 rfl
        obtain ⟨h1, h2⟩ := ih st1 ls1 (fun l hl => hp l (by simp [c2 l hl])) c1
        refine ⟨?_, h2⟩
        intro y hy
        rcases List.mem_append.1 hy with hy | hy
        · exact hys y hy
        · exact h1 y hy

theorem afterHeader_body (hdr body : List Str) (h : ∀ l ∈ hdr, contains (c% "END OF HEADER") l = false) :
    (∀ l ∈ (splitHeader2 (hdr ++ body)).1, l ∈ hdr ∨ l ∈ body) ∧ (∀ l ∈ (splitHeader2 (hdr ++ body)).2, l ∈ body) ∧
    (∀ l ∈ (splitHeader3 (hdr ++ body)).1, l ∈ hdr ∨ l ∈ body) ∧ (∀ l ∈ (splitHeader3 (hdr ++ body)).2, l ∈ body) ∧
    ∀ l ∈ afterHeader (hdr ++ body), l ∈ body := by
  have hlab : ∀ l, contains (c% "END OF HEADER") l = false → headerLabel l ≠ lblEnd := by
    intro l hl he
    unfold headerLabel at he
    obtain ⟨t, ht, -⟩ := rstrip_decomp (l.drop 60)
    rw [he] at ht
    have : contains lblEnd l = true := (contains_iff _ _).2 ⟨l.take 60, t, by rw [List.append_assoc, ← ht, List.take_append_drop]⟩
    rw [show lblEnd = c% "END OF HEADER" from rfl, hl] at this
    cases this
  induction hdr with
  | nil =>
    simp only [List.nil_append, List.not_mem_nil, false_or]
    clear h
    induction body with
    | nil => simp [splitHeader2, splitHeader3, afterHeader]
    | cons l ls ih =>
      obtain ⟨i1, i2, i3, i4, i5⟩ := ih
      refine ⟨?_, ?_, ?_, ?_, ?_⟩
      · simp only [splitHeader2]
        split
        · simp
        · intro x hx
          rcases List.mem_cons.1 hx with rfl | hx
          · simp
          · simp [i1 x hx]
      · simp only [splitHeader2]
        split
        · intro x hx; simp [hx]
        · intro x hx; simp [i2 x hx]
      · simp only [splitHeader3]
        split
        · simp
        · intro x hx
          rcases List.mem_cons.1 hx with rfl | hx
          · simp
          · simp [i3 x hx]
      · simp only [splitHeader3]
        split
        · intro x hx; simp [hx]
        · intro x hx; simp [i4 x hx]
      · simp only [afterHeader]
        split
        · intro x hx; simp [hx]
        · intro x hx; simp [i5 x hx]
  | cons a hdr ih =>
    obtain ⟨i1, i2, i3, i4, i5⟩ := ih fun l hl => h l (by simp [hl])
    have ha := h a (by simp)
    have hb := hlab a ha
    have ha' : contains lblEnd a = false := ha
    simp only [List.cons_append, splitHeader2, splitHeader3, afterHeader, ha', hb, if_false, Bool.false_eq_true]
    refine ⟨?_, i2, ?_, i4, i5⟩
    · intro x hx
      rcases List.mem_cons.1 hx with rfl | hx
      · simp
      · rcases i1 x hx with h | h <;> simp [h]
    · intro x hx
      rcases List.mem_cons.1 hx with rfl | hx
      · simp
      · rcases i3 x hx with h | h <;> simp [h]

/-! ## the interval -/

theorem fmt_plain (q : Rat) : Plain ((padLeft 10 (fmtFixed3 q)).take 10) := by
  have hc : ∀ c ∈ padLeft 10 (fmtFixed3 q), c = ' ' ∨ c = '-' ∨ c = '.' ∨ isDigit c = true := by
    intro c hc
    unfold padLeft at hc
    rcases List.mem_append.1 hc with hc | hc
    · left; exact (List.mem_replicate.1 hc).2
    · right
      unfold fmtFixed3 at hc
      simp only [List.mem_append] at hc
      rcases hc with ((hc | hc) | hc) | hc
      · split at hc
        · left; simpa using hc
        · cases hc
      · exact .inr (.inr (natStr_digits _ c hc))
      · right; left; simpa using hc
      · exact .inr (.inr (zfill_digits (natStr_digits _) c hc))
  have hn : ∀ c ∈ lower ((padLeft 10 (fmtFixed3 q)).take 10), c ≠ 'n' := by
    intro c h
    obtain ⟨d, hd, rfl⟩ := List.mem_map.1 h
    rcases hc d (List.mem_of_mem_take hd) with rfl | rfl | rfl | h
    · decide
    · decide
    · decide
    · rw [lowerC_digit h]; rintro rfl; revert h; decide
  constructor <;> intro h <;> exact hn 'n' (h.subset (by decide)) rfl

theorem parseInterval_fin {v : Nat} {q : Rat} {w : PyFloat} (h : parseInterval v (padLeft 10 (fmtFixed3 q)) = .ok w) : ∃ x, w = .fin x := by
  unfold parseInterval at h
  split at h
  · simp only [bind_eq_ok, pure_eq_ok] at h
    obtain ⟨i, -, rfl⟩ := h
    exact ⟨_, rfl⟩
  · exact pyFloat_plain (fmt_plain q) h

/-! ## opening -/

theorem openObs2_fin {v : Nat} {file : List Str} {o : Obs2} (hfin : FiniteText file) (h : openObs2 v file = .ok o) :
    FinHdr o.st.hdr ∧ (∃ q, o.st.hdr.interval = some (.fin q)) ∧ ∀ l ∈ o.rest, Plain l := by
  obtain ⟨hdr, body, rfl, f1, f2, f3⟩ := hfin
  obtain ⟨s1, s2, -, -, s5⟩ := afterHeader_body hdr body f1
  unfold openObs2 at h
  simp only [bind_eq_ok, pure_eq_ok] at h
  obtain ⟨types, -, hd, hh, ⟨dt, st⟩, hi, iv, hiv, rfl⟩ := h
  obtain ⟨q, rfl⟩ := parseInterval_fin hiv
  have h0 : FinHdr hd := parseHeaderGo_fin _ _ (fun l hl => by
    rcases s1 l hl with h | h
    · exact f2 l h
    · exact (f3 l h).pos) _ _ _ empty_fin hh
  have h1 := readLoop_fin ⟨v, types, linesPerRec types.length⟩ (splitHeader2 (hdr ++ body)).2.length ⟨hd, none⟩ (splitHeader2 (hdr ++ body)).2
    (fun l hl => f3 l (s2 l hl)) h0
  refine ⟨?_, ⟨q, rfl⟩, fun l hl => f3 l (s5 l hl)⟩
  show FinHdr { st.hdr with interval := _ }
  suffices FinHdr st.hdr from this
  unfold getInterval at hi
  split at hi
  · rename_i ds st1 hc
    simp only [bind_eq_ok, pure_eq_ok] at hi
    obtain ⟨i, -, hi⟩ := hi
    cases hi
    obtain ⟨y, hy, hst⟩ := collectDeltas_state _ _ _ _ _ _ _ hc
    rw [← hst]
    exact (h1.1 y hy).2
  · split at hi
    · cases hi
    · rename_i st1 hs
      split at hi
      · cases hi
      · simp only [bind_eq_ok, pure_eq_ok] at hi
        obtain ⟨i, -, hi⟩ := hi
        cases hi
        exact h1.2 _ hs

theorem allOf_some {α β : Type} {f : α → Option β} {l : List α} (h : ∀ a ∈ l, ∃ b, f a = some b) : ∃ r, allOf f l = some r := by
  induction l with
  | nil => exact ⟨_, rfl⟩
  | cons a l ih =>
    obtain ⟨b, hb⟩ := h a (by simp)
    obtain ⟨r, hr⟩ := ih fun x hx => h x (by simp [hx])
    exact ⟨b :: r, by simp [allOf, hb, hr]⟩

theorem obsIn_fin (path : Str) (h : HeaderVals) (items : List ObsItem) (stop : Except PyErr Unit) (hf : FinHdr h)
    (hi : ∃ q, h.interval = some (.fin q)) : ∃ r, obsIn path h items stop = some r := by
  obtain ⟨p, hp⟩ := hf
  obtain ⟨q, hq⟩ := hi
  unfold obsIn
  split
  · exact ⟨_, rfl⟩
  · exact ⟨_, by simp [hp, hq, ratOf]; rfl⟩

theorem obsIn2_fin {v : Nat} {file : List Str} {o : Obs2} (path : Str) (hfin : FiniteText file) (h : openObs2 v file = .ok o) :
    ∃ r, obsIn2 path o = some r := by
  obtain ⟨h1, h2, h3⟩ := openObs2_fin hfin h
  obtain ⟨l1, -⟩ := readLoop_fin o.cfg o.rest.length o.st o.rest h3 h1
  obtain ⟨items, hi⟩ : ∃ items, allOf (itemOf2 o.cfg.types) o.records.yields = some items := allOf_some (by
    intro y hy
    obtain ⟨a, p, b⟩ := l1 y hy
    obtain ⟨r, hr⟩ := recOf2_fin _ a
    exact ⟨_, by simp [itemOf2, hr, b]; rfl⟩)
  unfold obsIn2
  rw [hi]
  exact obsIn_fin path _ items _ h1 h2

/-! ## RINEX 3 -/

/-- the dictionary of a record has finite values only -/
def FinDict3 (d : ObsDict3) : Prop := ∀ p ∈ d, ∃ q, p.2.1 = .fin q

theorem parseChunk3_fin {s : Str} (h : Plain s) : ∃ q, (parseChunk3 s).1 = .fin q := by
  unfold parseChunk3
  split
  · exact ⟨0, rfl⟩
  · simp only
    split
    · exact ⟨0, rfl⟩
    · cases hp : parseFloat (s.take 14) with
      | none => exact ⟨0, rfl⟩
      | some v =>
        obtain ⟨q, rfl⟩ := parseFloat_plain (h.infix (List.take_prefix _ _).isInfix) hp
        exact ⟨q, rfl⟩

theorem parseChunks3_fin {rec : Str} (h : Plain rec) (ch : List (Nat × Nat)) : ∀ (ns : List Nat) (r : List ObsVal3), parseChunks3 rec ch ns = .ok r →
    ∀ v ∈ r, ∃ q, v.1 = .fin q := by
  intro ns
  induction ns with
  | nil => intro r hr; cases hr; simp
  | cons n ns ih =>
    intro r hr
    simp only [parseChunks3] at hr
    split at hr
    · cases hr
    split at hr
    · cases hr
    · rename_i r' hr'
      cases hr
      intro v hv
      rcases List.mem_cons.1 hv with rfl | hv
      · exact parseChunk3_fin (h.infix (slice_infix ..))
      · exact ih _ hr' v hv

theorem zipTypes3_fin : ∀ (ts : List Str) (vs : List ObsVal3) (d d' : ObsDict3), (∀ v ∈ vs, ∃ q, v.1 = .fin q) → FinDict3 d → zipTypes3 ts vs d = .ok d' → FinDict3 d' := by
  intro ts
  induction ts with
  | nil =>
    intro vs d d' hv hd h
    cases vs with
    | nil => simp [zipTypes3] at h; cases h; exact hd
    | cons => cases h
  | cons t ts ih =>
    intro vs d d' hv hd h
    cases vs with
    | nil => simp [zipTypes3] at h; cases h; exact hd
    | cons v vs =>
      refine ih vs _ d' (fun x hx => hv x (by simp [hx])) ?_ h
      intro p hp
      rcases dict_set_mem d t v p hp with hp | rfl
      · exact hd p hp
      · exact hv v (by simp)

theorem recOf3_fin : ∀ (d : ObsDict3), FinDict3 d → ∃ r, recOf3 d = some r := by
  intro d
  induction d with
  | nil => intro _; exact ⟨_, rfl⟩
  | cons p d ih =>
    intro h
    obtain ⟨r, hr⟩ := ih fun q hq => h q (by simp [hq])
    obtain ⟨t, v, i, j⟩ := p
    obtain ⟨q, h⟩ := h _ (List.mem_cons_self ..)
    simp only at h
    subst h
    exact ⟨_, by simp [recOf3, ratOf, hr]; rfl⟩

theorem parseObs3_fin {m : SysMap} {ch : List (Nat × Nat)} {rec : Str} (h : Plain rec) {sat : Str} {d : List ObsVal3}
    (hp : parseObs3 m ch rec = .ok (sat, d)) : ∀ v ∈ d, ∃ q, v.1 = .fin q := by
  unfold parseObs3 at hp
  split at hp
  · cases hp
  split at hp
  · cases hp
  split at hp
  · cases hp
  · rename_i hc
    cases hp
    exact parseChunks3_fin h _ _ _ hc

theorem parseHeader3_fin {v : Nat} {ls : List Str} (hl : ∀ l ∈ ls, PosPlain l) {o o' : Obj3} (hf : FinHdr o.hdr) (h : parseHeader3 v ls o = .ok o') : FinHdr o'.hdr := by
  unfold parseHeader3 at h
  split at h
  · cases h
  · rename_i hh
    split at h
    · cases h
    · cases h
      exact parseHeaderGo_fin _ _ hl _ _ _ hf hh

theorem step3_fin {v : Nat} {ch : List (Nat × Nat)} {line : Str} {l : Loc3} {o : Obj3} (hp : Plain line) (hs : ∀ x ∈ l.special, Plain x) (hf : FinHdr o.hdr)
    {y : Option Rec3} {l' : Loc3} {o' : Obj3} (h : step3 v ch line l o = .ok (y, l', o')) :
    (∀ x ∈ l'.special, Plain x) ∧ FinHdr o'.hdr ∧ ∀ r, y = some r → FinDict3 r.data := by
  unfold step3 at h
  split at h
  · cases h
  · split at h
    · cases h
    · cases h
      exact ⟨hs, hf, fun r hr => by cases hr⟩
  · split at h
    · cases h
    · rename_i ep hep
      split at h
      · unfold eventLine3 at h
        simp only at h
        have hsp : ∀ x ∈ (if ep.num > 0 then l.special ++ [line] else l.special), Plain x := by
          split
          · intro x hx
            rcases List.mem_append.1 hx with hx | hx
            · exact hs x hx
            · rw [List.mem_singleton.1 hx]; exact hp
          · exact hs
        generalize (if ep.num > 0 then l.special ++ [line] else l.special) = sp' at h hsp
        generalize (if ep.num > 0 then ep.num - 1 else ep.num) = n at h
        by_cases hn : n = 0
        · rw [if_pos hn] at h
          cases hh : handleEvent3 v ep.flag sp' o with
          | error e => rw [hh] at h; cases h
          | ok o2 =>
            rw [hh] at h
            cases h
            refine ⟨hsp, ?_, fun r hr => by cases hr⟩
            unfold handleEvent3 at hh
            split at hh
            · exact parseHeader3_fin (fun x hx => (hsp x hx).pos) hf hh
            · cases hh; exact hf
        · rw [if_neg hn] at h
          cases h
          exact ⟨hsp, hf, fun r hr => by cases hr⟩
      · generalize (if ep.flag = 1 then { ep with flag := 0 } else ep) = ep2 at h
        unfold dataLine3 at h
        split at h
        · split at h
          · cases h
          rename_i sat d hd
          split at h
          · cases h
          split at h
          · cases h
          split at h
          · cases h
          · rename_i dict hz
            cases h
            refine ⟨hs, hf, fun r hr => ?_⟩
            cases hr
            exact zipTypes3_fin _ _ _ _ (parseObs3_fin hp hd) (fun p hp => by cases hp) hz
        · cases h
          exact ⟨hs, hf, fun r hr => by cases hr⟩

theorem readLoop3_fin (v : Nat) (ch : List (Nat × Nat)) (ls : List Str) : ∀ l o, (∀ x ∈ ls, Plain x) → (∀ x ∈ l.special, Plain x) → FinHdr o.hdr →
    ∀ y ∈ (readLoop3 v ch ls l o).yields, FinDict3 y.1.data ∧ FinHdr y.2.hdr := by
  induction ls with
  | nil => intro l o _ _ _ y hy; cases hy
  | cons line ls ih =>
    intro l o hp hs hf y hy
    simp only [readLoop3] at hy
    cases hst : step3 v ch line l o with
    | error e => rw [hst] at hy; cases hy
    | ok r =>
      obtain ⟨z, l', o'⟩ := r
      rw [hst] at hy
      obtain ⟨h1, h2, h3⟩ := step3_fin (hp line (by simp)) hs hf hst
      have ih := ih l' o' (fun x hx => hp x (by simp [hx])) h1 h2
      cases z with
      | none => exact ih y hy
      | some rec =>
        rcases List.mem_cons.1 hy with rfl | hy
        · exact ⟨h3 rec rfl, h2⟩
        · exact ih y hy

theorem openObs3_fin {v fuel : Nat} {file : List Str} {o : Obs3} (hfin : FiniteText file) (h : openObs3 v fuel file = some (.ok o)) :
    FinHdr o.obj.hdr ∧ (∃ q, o.obj.hdr.interval = some (.fin q)) ∧ ∀ l ∈ o.rest, Plain l := by
  obtain ⟨hdr, body, rfl, f1, f2, f3⟩ := hfin
  obtain ⟨-, -, s3, -, s5⟩ := afterHeader_body hdr body f1
  unfold openObs3 at h
  simp only at h
  split at h
  · cases h
  rename_i o1 ho
  split at h
  · cases h
  · cases h
  split at h
  · cases h
  rename_i iv hiv
  split at h
  · cases h
  · cases h
    obtain ⟨q, rfl⟩ := parseInterval_fin hiv
    refine ⟨?_, ⟨q, rfl⟩, fun l hl => f3 l (s5 l hl)⟩
    show FinHdr { o1.hdr with interval := _ }
    suffices FinHdr o1.hdr from this
    exact parseHeader3_fin (fun l hl => by
      rcases s3 l hl with h | h
      · exact f2 l h
      · exact (f3 l h).pos) empty_fin ho

theorem obsIn3_fin {v fuel : Nat} {file : List Str} {o : Obs3} (path : Str) (hfin : FiniteText file) (h : openObs3 v fuel file = some (.ok o)) :
    ∃ r, obsIn3 path o = some r := by
  obtain ⟨h1, h2, h3⟩ := openObs3_fin hfin h
  have l1 := readLoop3_fin o.version o.chunks o.rest ⟨none, []⟩ o.obj h3 (fun x hx => by cases hx) h1
  obtain ⟨items, hi⟩ : ∃ items, allOf itemOf3 o.records.yields = some items := allOf_some (by
    intro y hy
    obtain ⟨a, p, b⟩ := l1 y hy
    obtain ⟨r, hr⟩ := recOf3_fin _ a
    exact ⟨_, by simp [itemOf3, hr, b]; rfl⟩)
  unfold obsIn3
  rw [hi]
  exact obsIn_fin path _ items _ h1 h2

end Verif.Proofs
