import Verif.Spec.Interval
import Verif.Proofs.Obs2Err
/-! # RINEX 2: the detection of the interval -/
namespace Verif.Proofs
open Verif.Py Verif.Model Verif.Spec Verif.Props

theorem sortDesc_head {key : Int → Nat} {R : Int → Int → Prop} {l : List Int} (hp : l.Pairwise R) :
    ∀ k r, sortDesc key l = k :: r →
      k ∈ l ∧ ∀ j ∈ l, j = k ∨ key j < key k ∨ (key j = key k ∧ R k j) := by
  induction l with
  | nil => intro k r h; simp [sortDesc] at h
  | cons x xs ih =>
    obtain ⟨hx, hxs⟩ := List.pairwise_cons.1 hp
    intro k r h
    simp only [sortDesc] at h
    cases hs : sortDesc key xs with
    | nil =>
      have hnil : xs = [] := by
        cases xs with
        | nil => rfl
        | cons y ys =>
          exfalso
          simp only [sortDesc] at hs
          cases h2 : sortDesc key ys with
          | nil => rw [h2] at hs; simp [insertDesc] at hs
          | cons a b => rw [h2] at hs; simp only [insertDesc] at hs; split at hs <;> simp at hs
      rw [hs] at h
      simp only [insertDesc, List.cons.injEq] at h
      subst hnil
      refine ⟨by simp [h.1], ?_⟩
      intro j hj
      simp only [List.mem_singleton] at hj
      left; rw [hj, h.1]
    | cons y ys =>
      obtain ⟨hy, hall⟩ := ih hxs y ys hs
      rw [hs] at h
      simp only [insertDesc] at h
      split at h
      · rename_i hle
        simp only [List.cons.injEq] at h
        obtain ⟨rfl, _⟩ := h
        refine ⟨by simp, ?_⟩
        intro j hj
        rcases List.mem_cons.1 hj with rfl | hj
        · exact Or.inl rfl
        · right
          have hjy : key j ≤ key y := by
            rcases hall j hj with rfl | h | h
            · exact Nat.le_refl _
            · omega
            · omega
          by_cases he : key j = key x
          · exact Or.inr ⟨he, hx j hj⟩
          · left; omega
      · rename_i hgt
        simp only [List.cons.injEq] at h
        obtain ⟨rfl, _⟩ := h
        refine ⟨by simp [hy], ?_⟩
        intro j hj
        rcases List.mem_cons.1 hj with rfl | hj
        · right; left; omega
        · exact hall j hj

theorem sortDesc_ne_nil {key : Int → Nat} {l : List Int} (h : l ≠ []) : sortDesc key l ≠ [] := by
  cases l with
  | nil => simp at h
  | cons x xs =>
    simp only [sortDesc]
    cases sortDesc key xs with
    | nil => simp [insertDesc]
    | cons a b => simp only [insertDesc]; split <;> simp

/-- invariant of the counting loop: after the prefix `p`, the keys are the elements of `p` in order of first occurrence and
the values are their counts -/
structure Counted (p : List Int) (d : Dict Int Nat) : Prop where
  nodup : d.keys.Nodup
  mem : ∀ k, k ∈ d.keys ↔ k ∈ p
  order : d.keys.Pairwise fun a b => p.idxOf a < p.idxOf b
  val : ∀ k, (d.get? k).getD 0 = p.count k

theorem keys_set_mem {d : Dict Int Nat} {k : Int} {v : Nat} (h : k ∈ d.keys) : (d.set k v).keys = d.keys := by
  induction d with
  | nil => simp [Dict.keys] at h
  | cons q d ih =>
    obtain ⟨a, b⟩ := q
    by_cases e : a = k
    · subst e; simp [Dict.set, Dict.keys]
    · simp only [Dict.keys, List.map_cons, List.mem_cons] at h
      have h' : k ∈ Dict.keys d := by
        rcases h with h | h
        · exact absurd h.symm e
        · exact h
      rw [Dict.set, if_neg e]
      simp only [Dict.keys, List.map_cons] at ih ⊢
      rw [ih h']

theorem countDict_counted (l p : List Int) (d : Dict Int Nat) (h : Counted p d) : Counted (p ++ l) (countDict l d) := by
  induction l generalizing p d with
  | nil => simpa [countDict] using h
  | cons x xs ih =>
    have e : p ++ x :: xs = (p ++ [x]) ++ xs := by simp
    rw [e]
    simp only [countDict]
    have hcount : ∀ k, (p ++ [x]).count k = p.count k + if x = k then 1 else 0 := by
      intro k; rw [List.count_append, List.count_singleton]; simp [beq_iff_eq]
    cases hg : d.get? x with
    | none =>
      apply ih
      have hx : x ∉ d.keys := by
        intro hm
        rw [← Dict.get?_isSome_iff] at hm
        rw [hg] at hm; simp at hm
      have hxp : x ∉ p := fun hm => hx ((h.mem x).2 hm)
      have hk : (d.set x 1).keys = d.keys ++ [x] := by
        rw [dict_set_append d x 1 hx]; simp [Dict.keys]
      refine ⟨?_, ?_, ?_, ?_⟩
      · rw [hk, List.nodup_append]
        refine ⟨h.nodup, by simp, ?_⟩
        intro a ha b hb
        simp only [List.mem_singleton] at hb
        subst hb; rintro rfl; exact hx ha
      · intro k; rw [hk]; simp [h.mem k]
      · rw [hk, List.pairwise_append]
        refine ⟨?_, by simp, ?_⟩
        · refine h.order.imp_of_mem ?_
          intro a b ha hb hab
          rw [List.idxOf_append_of_mem ((h.mem a).1 ha), List.idxOf_append_of_mem ((h.mem b).1 hb)]; exact hab
        · intro a ha b hb
          simp only [List.mem_singleton] at hb
          subst hb
          rw [List.idxOf_append_of_mem ((h.mem a).1 ha), List.idxOf_append_of_notMem hxp]
          have := List.idxOf_lt_length_iff.2 ((h.mem a).1 ha)
          omega
      · intro k
        rw [Dict.get?_set, hcount]
        by_cases hxk : x = k
        · subst hxk
          simp [List.count_eq_zero.2 hxp]
        · simp [hxk, Ne.symm hxk, h.val k]
    | some n =>
      apply ih
      have hx : x ∈ d.keys := by rw [← Dict.get?_isSome_iff, hg]; rfl
      have hxp : x ∈ p := (h.mem x).1 hx
      have hk : (d.set x (n + 1)).keys = d.keys := keys_set_mem hx
      refine ⟨by rw [hk]; exact h.nodup, ?_, ?_, ?_⟩
      · intro k; rw [hk, h.mem k]
        simp only [List.mem_append, List.mem_singleton]
        constructor
        · exact Or.inl
        · rintro (h1 | rfl)
          · exact h1
          · exact hxp
      · rw [hk]
        refine h.order.imp_of_mem ?_
        intro a b ha hb hab
        rw [List.idxOf_append_of_mem ((h.mem a).1 ha), List.idxOf_append_of_mem ((h.mem b).1 hb)]; exact hab
      · intro k
        rw [Dict.get?_set, hcount]
        by_cases hxk : x = k
        · subst hxk
          have := h.val x
          rw [hg] at this; simp at this
          simp [← this]
        · simp [hxk, Ne.symm hxk, h.val k]

theorem counted_nil : Counted [] [] := ⟨by simp [Dict.keys], by simp [Dict.keys], by simp [Dict.keys], by
  intro k; simp [Dict.get?]⟩

theorem pickInterval_spec (l : List Int) (h : l ≠ []) : ∃ i, pickInterval l = .ok i ∧ MostFrequent i l := by
  cases l with
  | nil => simp at h
  | cons d ds =>
    unfold pickInterval
    simp only
    by_cases hall : ds.all (fun x => decide (x = d)) = true
    · rw [if_pos hall]
      refine ⟨d, rfl, by simp, ?_, ?_⟩
      · intro j hj
        have : j = d := by
          rcases List.mem_cons.1 hj with rfl | hj
          · rfl
          · simpa using List.all_eq_true.1 hall j hj
        rw [this]
      · intro j hj _
        have : j = d := by
          rcases List.mem_cons.1 hj with rfl | hj
          · rfl
          · simpa using List.all_eq_true.1 hall j hj
        rw [this]
    · rw [if_neg hall]
      have hc := countDict_counted (d :: ds) [] [] counted_nil
      rw [List.nil_append] at hc
      generalize hD : countDict (d :: ds) [] = D at hc
      have hne : D.keys ≠ [] := by
        intro hnil
        have := (hc.mem d).2 (by simp)
        rw [hnil] at this; simp at this
      cases hs : sortDesc (fun k => (D.get? k).getD 0) D.keys with
      | nil => exact absurd hs (sortDesc_ne_nil hne)
      | cons k r =>
        obtain ⟨hk, hbest⟩ := sortDesc_head hc.order k r hs
        refine ⟨k, rfl, (hc.mem k).1 hk, ?_, ?_⟩
        · intro j hj
          rcases hbest j ((hc.mem j).2 hj) with rfl | hlt | ⟨heq, _⟩
          · exact Nat.le_refl _
          · simp only [hc.val] at hlt; omega
          · simp only [hc.val] at heq; omega
        · intro j hj heq
          rcases hbest j ((hc.mem j).2 hj) with rfl | hlt | ⟨_, hr⟩
          · exact Nat.le_refl _
          · simp only [hc.val] at hlt; omega
          · omega

/-! ## collecting the spacings -/

/-- spacings in the model's arithmetic -/
def subs (l : List DateTime) : List Int :=
  ((l.zip l.tail).filter fun p => p.1 ≠ p.2).map fun p => p.2.sub p.1

theorem subs_cons_cons (a b : DateTime) (l : List DateTime) :
    subs (a :: b :: l) = if a = b then subs (b :: l) else b.sub a :: subs (b :: l) := by
  unfold subs
  simp only [List.tail_cons, List.zip_cons_cons, List.filter_cons]
  by_cases h : a = b <;> simp [h]

theorem collectDeltas_spec (n : Nat) (ys : List (Rec2 × St2)) (e : DateTime) (acc : List Int) (st : St2)
    (ha : acc.length < n) :
    (acc.length + (subs (e :: ys.map (·.1.epoch))).length < n ∧
      collectDeltas n ys (some e) acc st = .exhausted (acc.reverse ++ subs (e :: ys.map (·.1.epoch)))) ∨
    (n ≤ acc.length + (subs (e :: ys.map (·.1.epoch))).length ∧ ∃ pre r st' post, ys = pre ++ (r, st') :: post ∧
      acc.length + (subs (e :: pre.map (·.1.epoch))).length + 1 = n ∧
      acc.length + (subs (e :: (pre.map (·.1.epoch) ++ [r.epoch]))).length = n ∧
      collectDeltas n ys (some e) acc st =
        .enough (acc.reverse ++ subs (e :: (pre.map (·.1.epoch) ++ [r.epoch]))) st') := by
  induction ys generalizing e acc st with
  | nil =>
    left
    simp [collectDeltas, subs]; exact ha
  | cons p ys ih =>
    obtain ⟨r, s⟩ := p
    simp only [List.map_cons, collectDeltas]
    rw [subs_cons_cons]
    by_cases he : e = r.epoch
    · rw [if_pos he, if_pos he]
      rcases ih e acc s ha with ⟨h1, h2⟩ | ⟨h1, pre, r', st', post, hy, h2, h3, h4⟩
      · left; rw [← he]; exact ⟨h1, h2⟩
      · right
        rw [← he]
        refine ⟨h1, (r, s) :: pre, r', st', post, by rw [hy]; rfl, ?_, ?_, ?_⟩
        · simp only [List.map_cons]; rw [subs_cons_cons, if_pos he, ← he]; exact h2
        · simp only [List.map_cons, List.cons_append]; rw [subs_cons_cons, if_pos he, ← he]; exact h3
        · simp only [List.map_cons, List.cons_append]; rw [subs_cons_cons, if_pos he, ← he]; exact h4
    · rw [if_neg he, if_neg he]
      simp only [List.length_cons]
      by_cases hlt : acc.length + 1 < n
      · rw [if_pos hlt]
        rcases ih r.epoch (r.epoch.sub e :: acc) s (by simpa using hlt) with
          ⟨h1, h2⟩ | ⟨h1, pre, r', st', post, hy, h2, h3, h4⟩
        · left
          simp only [List.length_cons] at h1
          refine ⟨by omega, ?_⟩
          rw [h2]; simp
        · right
          simp only [List.length_cons] at h1 h2 h3
          refine ⟨by omega, (r, s) :: pre, r', st', post, by rw [hy]; rfl, ?_, ?_, ?_⟩
          · simp only [List.map_cons]; rw [subs_cons_cons, if_neg he]; simp only [List.length_cons]; omega
          · simp only [List.map_cons, List.cons_append]; rw [subs_cons_cons, if_neg he]; simp only [List.length_cons]; omega
          · simp only [List.map_cons, List.cons_append]; rw [subs_cons_cons, if_neg he, h4]; simp
      · rw [if_neg hlt]
        right
        refine ⟨by omega, [], r, s, ys, rfl, ?_, ?_, ?_⟩
        · simp [subs]; omega
        · simp only [List.map_nil, List.nil_append]; rw [subs_cons_cons, if_neg he]; simp [subs]; omega
        · simp only [List.map_nil, List.nil_append]; rw [subs_cons_cons, if_neg he]; simp [subs]

theorem subs_eq_spacings {l : List DateTime} (h : ∀ t ∈ l, Legal t) : subs l = spacings l := by
  unfold subs spacings
  apply List.map_congr_left
  intro p hp
  have hm := (List.mem_filter.1 hp).1
  have h1 := (List.of_mem_zip hm).1
  have h2 := List.mem_of_mem_tail (List.of_mem_zip hm).2
  rw [instant_eq (h _ h1), instant_eq (h _ h2)]
  rfl

theorem subs_prefix {l m : List DateTime} : subs l <+: subs (l ++ m) := by
  induction l with
  | nil => simp [subs]
  | cons a l ih =>
    cases l with
    | nil => simp [subs]
    | cons b l =>
      rw [List.cons_append, List.cons_append, subs_cons_cons, subs_cons_cons]
      split
      · exact ih
      · exact List.cons_prefix_cons.2 ⟨rfl, ih⟩

/-! ## legal epochs -/

theorem validateEpoch_ok_legal {d : List Int} {s us : Int} {t : DateTime} (hl : d.length = 5)
    (h : validateEpoch (d ++ [s, us]) = .ok t) : Legal t := by
  match d, hl with
  | [y, mo, dd, hh, mi], _ =>
    exact ((C01_accepted_iff y mo dd hh mi s us _ t (yearMeans_full y)).1 (by simpa using h)).2.1

theorem epochDate_legal {ep : Str} {t : DateTime} (h : epochDate ep = .ok t) : Legal t := by
  unfold epochDate at h
  generalize hx : (do
    let d ← mapInt ((pyRange 0 13 3).map fun i => slice ep i (i + 3))
    let sec ← pyFloat (slice ep 15 26)
    let (s, us) ← secSplitWith (· * 1000000) 5 sec
    validateEpoch (d ++ [s, us]) : Except PyErr DateTime) = x at h
  cases x with
  | error e => simp only [catching_error] at h; split at h <;> simp at h
  | ok t' =>
    simp only [catching_ok, Except.ok.injEq] at h
    subst h
    simp only [bind_eq_ok, Prod.exists] at hx
    obtain ⟨d, hd, v, _, s, us, _, hv⟩ := hx
    obtain ⟨hlen, _⟩ := mapInt_ok hd
    exact validateEpoch_ok_legal (by rw [hlen]; rfl) hv

theorem readEpoch_legal {ep : Str} {ls ls' : List Str} {x : Epoch2} {t : DateTime}
    (h : readEpoch ep ls = .ok (x, ls')) (ht : x.epoch = some t) : Legal t := by
  unfold readEpoch at h
  split at h
  · simp at h
  · split at h
    · split at h
      · simp at h
      · simp only [Except.ok.injEq, Prod.mk.injEq] at h
        rw [← h.1] at ht; simp at ht
    · simp only [bind_eq_ok] at h
      obtain ⟨t', hd, h⟩ := h
      split at h
      · simp at h
      · simp only [bind_eq_ok] at h
        obtain ⟨p, _, h⟩ := h
        split at h
        · simp at h
        · simp only [Except.ok.injEq, Prod.mk.injEq] at h
          rw [← h.1] at ht
          simp only [Option.some.injEq] at ht
          rw [← ht]; exact epochDate_legal hd

theorem readSats_epoch {c : Cfg2} {st : St2} {t : DateTime} {prns ls : List Str} :
    ∀ y ∈ (readSats c st t prns ls).1, y.1.epoch = t ∧ y.2 = st := by
  induction prns generalizing ls with
  | nil => simp [readSats]
  | cons p prns ih =>
    simp only [readSats]
    split
    · simp
    · rename_i data l1 _
      split
      · simp
      · have := ih (ls := l1)
        cases hr : readSats c st t prns l1 with
        | mk ys r =>
          rw [hr] at this
          simp only at this ⊢
          split
          · exact this
          · intro y hy
            rcases List.mem_cons.1 hy with rfl | hy
            · exact ⟨rfl, rfl⟩
            · exact this y hy

theorem readBlock_legal {c : Cfg2} {st : St2} {l : Str} {ls : List Str} :
    ∀ y ∈ (readBlock c st l ls).1, Legal y.1.epoch := by
  unfold readBlock
  split
  · simp
  · rename_i ep l1 he
    split
    · split
      · simp
      · split <;> simp
    · split
      · split <;> simp
      · split
        · simp
        · rename_i t ht
          have hl := readEpoch_legal he ht
          have hs := readSats_epoch (c := c) (st := st) (t := t) (prns := ep.prns) (ls := l1)
          cases hr : readSats c st t ep.prns l1 with
          | mk ys r =>
            rw [hr] at hs
            cases r <;> (simp only at hs ⊢; intro y hy; rw [(hs y hy).1]; exact hl)

theorem readRecords2_legal (c : Cfg2) (n : Nat) (st : St2) (ls : List Str) (hn : ls.length ≤ n) :
    ∀ y ∈ (readRecords2 c st ls).yields, Legal y.1.epoch := by
  induction n generalizing st ls with
  | zero =>
    have : ls = [] := List.length_eq_zero_iff.1 (by omega)
    subst this; simp [readRecords2, readLoop]
  | succ n ih =>
    cases ls with
    | nil => simp [readRecords2, readLoop]
    | cons l ls =>
      rw [readRecords2_cons]
      have hb := readBlock_legal (c := c) (st := st) (l := l) (ls := ls)
      cases hr : readBlock c st l ls with
      | mk ys r =>
        rw [hr] at hb
        cases r with
        | error e => exact hb
        | ok x =>
          obtain ⟨st', l'⟩ := x
          have hlen := readBlock_len hr
          intro y hy
          rcases List.mem_append.1 hy with hy | hy
          · exact hb y hy
          · exact ih st' l' (by simp at hn; omega) y hy

end Verif.Proofs
