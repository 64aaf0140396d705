import Verif.Proofs.Interval
import Verif.Proofs.ObsTypes
import Verif.Proofs.Header
/-! # RINEX 2: whole files -/
namespace Verif.Proofs
open Verif.Py Verif.Model Verif.Spec Verif.Props

/-! ## the stored interval -/

theorem fmtFixed3_eq (q : Rat) : fmtFixed3 q = (if q < 0 then ['-'] else []) ++
    natStr ((roundHalfEven (q * 1000)).natAbs / 1000) ++ ['.'] ++
    zfill 3 (natStr ((roundHalfEven (q * 1000)).natAbs % 1000)) := rfl

theorem zf3_length (a : Nat) : (zfill 3 (natStr (a % 1000))).length = 3 := zfill_natStr_length (by omega) (by omega)

theorem round_sign {q : Rat} : (q < 0 → roundHalfEven (q * 1000) ≤ 0) ∧ (0 ≤ q → 0 ≤ roundHalfEven (q * 1000)) := by
  constructor
  · intro h; exact roundHalfEven_le_int (by push_cast; nlinarith)
  · intro h; exact roundHalfEven_mono_int (by push_cast; nlinarith)

theorem parseFloat_fmt3 (q : Rat) (p : Str) (hp : ∀ c ∈ p, isSpace c = true) :
    parseFloat (p ++ fmtFixed3 q) = some (.fin ((roundHalfEven (q * 1000) : Rat) / 1000)) := by
  have h := parseFloat_fixed p [] (decide (q < 0)) (natStr ((roundHalfEven (q * 1000)).natAbs / 1000))
    (zfill 3 (natStr ((roundHalfEven (q * 1000)).natAbs % 1000))) hp (by simp) (natStr_digits _)
    (zfill_digits (natStr_digits _)) (natStr_ne_nil _)
  rw [zf3_length, decVal_natStr, decVal_zfill, decVal_natStr] at h
  rw [fmtFixed3_eq]
  simp only [decide_eq_true_eq, List.append_nil] at h
  rw [h]
  congr 2
  generalize hm : roundHalfEven (q * 1000) = m
  have hs := round_sign (q := q)
  rw [hm] at hs
  have hdm : ((m.natAbs / 1000 : Nat) : Rat) * 1000 + ((m.natAbs % 1000 : Nat) : Rat) = (m.natAbs : Rat) := by
    have := Nat.div_add_mod m.natAbs 1000
    have h2 : ((1000 * (m.natAbs / 1000) + m.natAbs % 1000 : Nat) : Rat) = (m.natAbs : Rat) := by rw [this]
    push_cast at h2 ⊢
    linarith
  by_cases hq : q < 0
  · simp only [hq, if_true]
    have hm0 := hs.1 hq
    have habs : (m.natAbs : Rat) = -(m : Rat) := by
      have : ((m.natAbs : Int) : Rat) = ((-m : Int) : Rat) := by congr 1; omega
      rw [Int.cast_natCast, Int.cast_neg] at this; exact this
    rw [habs] at hdm
    norm_num
    linarith
  · simp only [hq, if_false]
    have hm0 := hs.2 (by linarith)
    have habs : (m.natAbs : Rat) = (m : Rat) := by
      have : ((m.natAbs : Int) : Rat) = (m : Rat) := by congr 1; omega
      rw [Int.cast_natCast] at this; exact this
    rw [habs] at hdm
    norm_num
    linarith

theorem fmt3_length {q : Rat} (h : (roundHalfEven (q * 1000)).natAbs < 100000000) : (fmtFixed3 q).length ≤ 10 := by
  rw [fmtFixed3_eq]
  have h1 : (natStr ((roundHalfEven (q * 1000)).natAbs / 1000)).length ≤ 5 := natStr_length_le (by omega) (by omega)
  have h2 := zf3_length (roundHalfEven (q * 1000)).natAbs
  simp only [List.length_append, h2, List.length_singleton]
  split <;> simp <;> omega

/-- versions 2.10 and later: the printed value -/
theorem parseInterval_later {v : Nat} (hv : v ≠ 200) {q : Rat} (h : (roundHalfEven (q * 1000)).natAbs < 100000000) :
    parseInterval v (padLeft 10 (fmtFixed3 q)) = .ok (.fin ((roundHalfEven (q * 1000) : Rat) / 1000)) := by
  unfold parseInterval
  rw [if_neg hv, List.take_of_length_le (by rw [padLeft_length (fmt3_length h)])]
  unfold pyFloat padLeft
  rw [parseFloat_fmt3 q _ mem_blanks]

/-- version 2.0: the whole part of the printed value -/
theorem parseInterval_200 {q : Rat} (hq : 0 ≤ q) (h : (roundHalfEven (q * 1000)).natAbs < 100000000) :
    parseInterval 200 (padLeft 10 (fmtFixed3 q)) = .ok (.fin ((roundHalfEven (q * 1000) / 1000 : Int) : Rat)) := by
  unfold parseInterval
  have hlen := fmt3_length h
  have h2 := zf3_length (roundHalfEven (q * 1000)).natAbs
  rw [if_pos rfl]
  have hm0 := (round_sign (q := q)).2 hq
  have ht : (padLeft 10 (fmtFixed3 q)).take 6 =
      List.replicate (10 - (fmtFixed3 q).length) ' ' ++ natStr ((roundHalfEven (q * 1000)).natAbs / 1000) := by
    unfold padLeft
    generalize hk : 10 - (fmtFixed3 q).length = k
    rw [fmtFixed3_eq] at hlen hk ⊢
    rw [if_neg (by linarith)] at hlen hk ⊢
    simp only [List.nil_append, List.length_append, h2, List.length_singleton] at hlen hk
    rw [List.nil_append, ← List.append_assoc, ← List.append_assoc, List.append_assoc]
    exact List.take_left' (by simp; omega)
  rw [ht]
  have hp : parseInt (List.replicate (10 - (fmtFixed3 q).length) ' ' ++
      natStr ((roundHalfEven (q * 1000)).natAbs / 1000)) =
      some (((roundHalfEven (q * 1000)).natAbs / 1000 : Nat) : Int) := by
    rw [parseInt_prepend_space _ _ mem_blanks]; exact parseInt_natStr _
  simp only [pyInt, hp, bind, Except.bind, pure, Except.pure]
  congr 3
  omega

/-! ## get_interval -/

theorem subs_nil_cons (ys : List (Rec2 × St2)) (r : Rec2) (s : St2) :
    (((r, s) :: ys).map (·.1.epoch)) = r.epoch :: ys.map (·.1.epoch) := rfl

/-- complete description of `get_interval` -/
theorem getInterval_spec {n : Nat} (hn : 0 < n) (st : St2) (run : Run2)
    (hl : ∀ y ∈ run.yields, Legal y.1.epoch) :
    let S := spacings (run.yields.map (·.1.epoch))
    (n ≤ S.length → ∃ pre r st' post i, run.yields = pre ++ (r, st') :: post ∧
      (spacings ((pre ++ [(r, st')]).map (·.1.epoch))).length = n ∧
      MostFrequent i (S.take n) ∧ getInterval n st run = .ok (i, st')) ∧
    (S.length < n → (∀ e, run.stop = .error e → getInterval n st run = .error e) ∧
      (∀ st', run.stop = .ok st' → S = [] → getInterval n st run = .error .rinex) ∧
      (∀ st', run.stop = .ok st' → S ≠ [] → ∃ i, MostFrequent i S ∧ getInterval n st run = .ok (i, st'))) := by
  intro S
  have hsub : subs (run.yields.map (·.1.epoch)) = S := subs_eq_spacings (by
    intro t ht; obtain ⟨y, hy, rfl⟩ := List.mem_map.1 ht; exact hl y hy)
  cases hy : run.yields with
  | nil =>
    have hS : S = [] := by simp [S, hy, spacings]
    refine ⟨fun h => by rw [hS] at h; simp at h; omega, fun _ => ⟨?_, ?_, ?_⟩⟩
    · intro e he; simp [getInterval, hy, collectDeltas, he]
    · intro st' he _; simp [getInterval, hy, collectDeltas, he]
    · intro st' _ hne; exact absurd hS hne
  | cons p ys =>
    obtain ⟨r0, s0⟩ := p
    have hc := collectDeltas_spec n ys r0.epoch [] s0 (by simpa using hn)
    simp only [List.length_nil, Nat.zero_add, List.reverse_nil, List.nil_append] at hc
    have hS' : subs (r0.epoch :: ys.map (·.1.epoch)) = S := by rw [← hsub, hy]; rfl
    rw [hS'] at hc
    have hstart : collectDeltas n ((r0, s0) :: ys) none [] st = collectDeltas n ys (some r0.epoch) [] s0 := rfl
    rcases hc with ⟨h1, h2⟩ | ⟨h1, pre, r, st', post, h2, h3, h4, h5⟩
    · refine ⟨fun h => absurd h (by omega), fun _ => ⟨?_, ?_, ?_⟩⟩
      · intro e he; simp [getInterval, hy, hstart, h2, he]
      · intro st' he hnil; simp [getInterval, hy, hstart, h2, he, hnil]
      · intro st' he hne
        obtain ⟨i, hi, hm⟩ := pickInterval_spec S hne
        refine ⟨i, hm, ?_⟩
        simp only [getInterval, hy, hstart, h2, he, hne, if_false, hi]
        rfl
    · refine ⟨fun _ => ?_, fun h => absurd h (by omega)⟩
      have hpre : subs (r0.epoch :: (pre.map (·.1.epoch) ++ [r.epoch])) <+: S := by
        rw [← hS', h2]
        have := subs_prefix (l := r0.epoch :: (pre.map (·.1.epoch) ++ [r.epoch])) (m := post.map (·.1.epoch))
        simpa using this
      have htake : subs (r0.epoch :: (pre.map (·.1.epoch) ++ [r.epoch])) = S.take n := by
        have := List.prefix_iff_eq_take.1 hpre
        rw [this]; congr 1
      obtain ⟨i, hi, hm⟩ := pickInterval_spec (S.take n) (by
        intro hnil
        have := congrArg List.length hnil
        rw [List.length_take, List.length_nil] at this; omega)
      refine ⟨(r0, s0) :: pre, r, st', post, i, by rw [h2]; rfl, ?_, hm, ?_⟩
      · rw [← subs_eq_spacings]
        · have e : (((r0, s0) :: pre ++ [(r, st')]).map (·.1.epoch)) =
              r0.epoch :: (pre.map (·.1.epoch) ++ [r.epoch]) := by simp
          rw [e, h4]
        · intro t ht
          obtain ⟨y, hym, rfl⟩ := List.mem_map.1 ht
          apply hl
          rw [hy, h2]
          simp only [List.mem_append, List.mem_cons, List.cons_append] at hym ⊢
          rcases hym with h | h | h
          · exact Or.inl h
          · exact Or.inr (Or.inl h)
          · exact Or.inr (Or.inr (Or.inl (by simpa using h)))
      · simp only [getInterval, hy, hstart, h5, htake, hi]
        rfl

/-! ## the header of a file -/

theorem splitHeader2_spec (hdr body : List Str) (e : Str) (hh : ∀ l ∈ hdr, contains lblEnd l = false)
    (he : contains lblEnd e = true) : splitHeader2 (hdr ++ e :: body) = (hdr, body) := by
  induction hdr with
  | nil => simp [splitHeader2, he]
  | cons l hdr ih =>
    simp only [List.cons_append, splitHeader2, hh l (by simp), Bool.false_eq_true, if_false]
    rw [ih (fun x hx => hh x (by simp [hx]))]

theorem headerLabel_contains {l lbl : Str} (h : headerLabel l = lbl) : contains lbl l = true := by
  unfold headerLabel at h
  obtain ⟨t, ht, _⟩ := rstrip_decomp (l.drop 60)
  rw [h] at ht
  have hl : l = l.take 60 ++ lbl ++ t := by
    conv => lhs; rw [← List.take_append_drop 60 l, ht]
    simp
  rw [hl]
  exact contains_of_append _ _ _

theorem afterHeader_spec (hdr body : List Str) (e : Str) (hh : ∀ l ∈ hdr, headerLabel l ≠ lblEnd)
    (he : headerLabel e = lblEnd) : afterHeader (hdr ++ e :: body) = body := by
  induction hdr with
  | nil => simp [afterHeader, he]
  | cons l hdr ih =>
    simp only [List.cons_append, afterHeader, hh l (by simp), if_false]
    exact ih (fun x hx => hh x (by simp [hx]))

theorem afterHeader_none (file : List Str) (h : ∀ l ∈ file, headerLabel l ≠ lblEnd) : afterHeader file = [] := by
  induction file with
  | nil => rfl
  | cons l file ih =>
    simp only [afterHeader, h l (by simp), if_false]
    exact ih (fun x hx => h x (by simp [hx]))

/-! ## epochs only -/

theorem head_ne {e : Epoch} {es : List Epoch} (h : e.time ∉ es.map (·.time)) (st : St2) :
    ∀ e', es.head? = some e' → ({ st with preceding := some e.time } : St2).preceding ≠ some e'.time := by
  intro e' he' h'
  simp only [Option.some.injEq] at h'
  exact h (List.mem_map.2 ⟨e', List.mem_of_mem_head? he', h'.symm⟩)

theorem deliver_obs (c : Cfg2) (st : St2) (es : List Epoch) (hd : (es.map (·.time)).Nodup)
    (hp : ∀ e, es.head? = some e → st.preceding ≠ some e.time) :
    ∃ Y st', deliver c st (es.map .obs) = (Y, .ok st') ∧
      Y.map (·.1) = (es.map (recsOf c.types)).flatten ∧ st'.hdr = st.hdr ∧
      (∀ y ∈ Y, y.2.hdr = st.hdr) ∧
      (st'.preceding = match es.getLast? with | none => st.preceding | some e => some e.time) := by
  induction es generalizing st with
  | nil => exact ⟨[], st, rfl, rfl, rfl, by simp, rfl⟩
  | cons e es ih =>
    simp only [List.map_cons, List.nodup_cons] at hd
    obtain ⟨Y, st', h1, h2, h3, h4, h5⟩ := ih { st with preceding := some e.time } hd.2 (head_ne hd.1 st)
    refine ⟨(recsOf c.types e).map (·, st) ++ Y, st', ?_, ?_, h3, ?_, ?_⟩
    · simp only [List.map_cons, deliver, deliverItem, if_neg (hp e rfl), h1]
    · rw [List.map_append, h2, List.map_map]
      simp only [List.map_cons, List.flatten_cons]
      congr 1
      exact List.map_id _
    · intro y hy
      rcases List.mem_append.1 hy with hy | hy
      · obtain ⟨r, _, rfl⟩ := List.mem_map.1 hy; rfl
      · exact h4 y hy
    · rw [h5]
      cases es with
      | nil => rfl
      | cons e' es =>
        rw [List.getLast?_cons_cons]
        cases h : (e' :: es).getLast? with
        | none => simp at h
        | some x => rfl

/-- states accompanying the records: the preceding epoch is never `t0` if `t0` is neither the initial one nor in the list -/
theorem deliver_preceding (c : Cfg2) (st : St2) (t0 : DateTime) (es : List Epoch) (hd : (es.map (·.time)).Nodup)
    (h0 : ∀ e ∈ es, t0 ≠ e.time) (hp : ∀ e, es.head? = some e → st.preceding ≠ some e.time)
    (hst : st.preceding ≠ some t0) :
    ∀ y ∈ (deliver c st (es.map .obs)).1, y.2.preceding ≠ some t0 := by
  induction es generalizing st with
  | nil => simp [deliver]
  | cons e es ih =>
    simp only [List.map_cons, List.nodup_cons] at hd
    intro y hy
    simp only [List.map_cons, deliver, deliverItem, if_neg (hp e rfl)] at hy
    rcases List.mem_append.1 hy with hy | hy
    · obtain ⟨r, _, rfl⟩ := List.mem_map.1 hy; exact hst
    · refine ih { st with preceding := some e.time } hd.2 (fun e' he' => h0 e' (by simp [he'])) (head_ne hd.1 st) ?_ y hy
      simp only [ne_eq, Option.some.injEq]; exact fun h => h0 e (by simp) h.symm

theorem recsOf_epoch {types : List Str} {e : Epoch} : ∀ r ∈ recsOf types e, r.epoch = e.time := by
  intro r hr
  obtain ⟨s, _, rfl⟩ := List.mem_map.1 hr; rfl

theorem subs_const (l : List DateTime) (t : DateTime) (h : ∀ x ∈ l, x = t) : subs l = [] := by
  induction l with
  | nil => rfl
  | cons a l ih =>
    cases l with
    | nil => rfl
    | cons b l =>
      rw [subs_cons_cons, if_pos (by rw [h a (by simp), h b (by simp)]), ih (fun x hx => h x (by simp [hx]))]

theorem subs_two_const (l m : List DateTime) (t u : DateTime) (h : ∀ x ∈ l, x = t) (h2 : ∀ x ∈ m, x = u) :
    (subs (l ++ m)).length ≤ 1 := by
  induction l with
  | nil => rw [List.nil_append, subs_const m u h2]; simp
  | cons a l ih =>
    have ih := ih (fun x hx => h x (by simp [hx]))
    cases l with
    | nil =>
      cases m with
      | nil => simp [subs]
      | cons b m =>
        simp only [List.cons_append, List.nil_append]
        rw [subs_cons_cons]
        split
        · exact ih
        · rw [subs_const (b :: m) u h2]; simp
    | cons b l =>
      rw [List.cons_append, List.cons_append, subs_cons_cons, if_pos (by rw [h a (by simp), h b (by simp)])]
      exact ih

theorem subs_eq_nil {a : DateTime} {l : List DateTime} (h : subs (a :: l) = []) : ∀ x ∈ l, x = a := by
  induction l generalizing a with
  | nil => simp
  | cons b l ih =>
    rw [subs_cons_cons] at h
    split at h
    · rename_i hab
      subst hab
      intro x hx
      rcases List.mem_cons.1 hx with rfl | hx
      · rfl
      · exact ih h x hx
    · simp at h

theorem zip_tail_rel {R : DateTime → DateTime → Prop} {l : List DateTime} (h : l.Pairwise R) :
    ∀ p ∈ l.zip l.tail, R p.1 p.2 := by
  induction l with
  | nil => simp
  | cons a l ih =>
    cases l with
    | nil => simp
    | cons b l =>
      intro p hp
      simp only [List.tail_cons, List.zip_cons_cons, List.mem_cons] at hp
      rcases hp with rfl | hp
      · exact (List.pairwise_cons.1 h).1 b (by simp)
      · exact ih (List.pairwise_cons.1 h).2 p hp

/-- times of the records of a list of epochs -/
theorem recs_times (types : List Str) (es : List Epoch) :
    ((es.map (recsOf types)).flatten).map (·.epoch) = (es.map fun e => List.replicate e.sats.length e.time).flatten := by
  rw [List.map_flatten, List.map_map]
  congr 1
  apply List.map_congr_left
  intro e _
  simp only [Function.comp]
  rw [recsOf, List.map_map]
  exact List.map_const' ..

theorem spacings_increasing {es : List Epoch} (hl : ∀ e ∈ es, Legal e.time)
    (hinc : es.Pairwise fun a b => instant a.time < instant b.time) :
    ∀ d ∈ spacings (es.map fun e => List.replicate e.sats.length e.time).flatten,
      0 < d ∧ ∃ a ∈ es, ∃ b ∈ es, d = instant b.time - instant a.time := by
  intro d hd
  unfold spacings at hd
  obtain ⟨p, hp, rfl⟩ := List.mem_map.1 hd
  obtain ⟨hz, hne⟩ := List.mem_filter.1 hp
  have hmem : ∀ t ∈ (es.map fun e => List.replicate e.sats.length e.time).flatten, ∃ e ∈ es, t = e.time := by
    intro t ht
    obtain ⟨l, hl, htl⟩ := List.mem_flatten.1 ht
    obtain ⟨e, he, rfl⟩ := List.mem_map.1 hl
    exact ⟨e, he, (List.mem_replicate.1 htl).2⟩
  obtain ⟨a, ha, h1⟩ := hmem _ (List.of_mem_zip hz).1
  obtain ⟨b, hb, h2⟩ := hmem _ (List.mem_of_mem_tail (List.of_mem_zip hz).2)
  have hsorted : ((es.map fun e => List.replicate e.sats.length e.time).flatten).Pairwise
      fun x y => instant x ≤ instant y := by
    rw [List.pairwise_flatten]
    refine ⟨?_, ?_⟩
    · intro l hl
      obtain ⟨e, he, rfl⟩ := List.mem_map.1 hl
      exact List.pairwise_replicate.2 (Or.inr (le_refl _))
    · rw [List.pairwise_map]
      refine hinc.imp ?_
      intro e f hef x hx y hy
      rw [(List.mem_replicate.1 hx).2, (List.mem_replicate.1 hy).2]; omega
  have hle := zip_tail_rel hsorted p hz
  refine ⟨?_, a, ha, b, hb, by rw [h1, h2]⟩
  have hne' : p.1 ≠ p.2 := by simpa using hne
  have : instant p.1 ≠ instant p.2 := by
    rw [h1, h2]
    intro h
    apply hne'
    rw [h1, h2]
    exact instant_inj (hl a ha) (hl b hb) h
  omega

theorem parseHeader_quiet (v : Nat) (ls : List Str) (h : HeaderVals) (hq : ∀ l ∈ ls, labelOf l ∉ [lbl1, lbl2, lbl3, lbl4, c% "# / TYPES OF OBSERV"]) :
    parseHeader v (ls.map rstrip) h = .ok h := by
  unfold parseHeader
  induction ls with
  | nil => rfl
  | cons l ls ih =>
    have hl := hq l (by simp)
    simp only [List.map_cons, parseHeaderGo]
    have hlab : headerLabel (rstrip l) = labelOf l := by
      obtain ⟨t, ht, hsp⟩ := rstrip_decomp l
      unfold labelOf headerLabel
      conv => rhs; rw [ht]
      rw [List.drop_append]
      exact (rstrip_append_space _ _ fun c hc => hsp c (List.mem_of_mem_drop hc)).symm
    simp only [List.mem_cons, List.not_mem_nil, or_false, not_or] at hl
    obtain ⟨a, b, c, d, -⟩ := hl
    have hfind : ([.verType, .tofo, .xyz, .interval] : List HItem).find? (fun i => i.label = headerLabel (rstrip l)) = none := by
      rw [hlab, List.find?_eq_none]
      intro i hi
      simp only [List.mem_cons, List.not_mem_nil, or_false] at hi
      simp only [decide_eq_true_eq]
      rcases hi with rfl | rfl | rfl | rfl
      · exact fun h => a h.symm
      · exact fun h => b h.symm
      · exact fun h => c h.symm
      · exact fun h => d h.symm
    rw [hfind]
    exact ih (fun x hx => hq x (by simp [hx]))

/-- quiet events deliver nothing and change nothing -/
theorem deliver_quiet (c : Cfg2) (n : Nat) (st : St2) (items : List Item) (hb : BodyOk n items) :
    deliver c st items = deliver c st ((epochsOf items).map .obs) := by
  induction items generalizing st with
  | nil => rfl
  | cons i is ih =>
    have hb' : BodyOk n is := fun j hj => hb j (by simp [hj])
    cases i with
    | obs e => simp only [epochsOf, List.map_cons, deliver, deliverItem, ih _ hb']
    | event e =>
      have hq := (hb (.event e) (by simp)).2 e rfl
      simp only [epochsOf]
      rw [← ih st hb']
      simp only [deliver, deliverItem]
      by_cases hf : e.flag = 3 ∨ e.flag = 4
      · rw [if_pos hf, parseHeader_quiet _ _ _ (hq hf)]
        simp
      · rw [if_neg hf]
        simp

theorem epochsOf_ok {n : Nat} {items : List Item} (hb : BodyOk n items) : ∀ e ∈ epochsOf items, e.Ok n := by
  induction items with
  | nil => simp [epochsOf]
  | cons i is ih =>
    have hb' : BodyOk n is := fun j hj => hb j (by simp [hj])
    cases i with
    | obs e =>
      intro x hx
      simp only [epochsOf, List.mem_cons] at hx
      rcases hx with rfl | hx
      · exact (hb (.obs x) (by simp)).1
      · exact ih hb' x hx
    | event e => exact ih hb'

/-- a whole file: header, END OF HEADER, quiet events, at least two epochs in increasing order spanning less than 99999 s -/
theorem open_read {v : Nat} (hdr ls : List Str) (endl : Str) (ts : List Str) (h0 : HeaderVals) (items : List Item) (es : List Epoch) (hes : es = epochsOf items)
    (hh : ∀ l ∈ hdr, contains lblEnd l = false) (hend : headerLabel endl = lblEnd) (hts : obsTypes hdr = .ok ts)
    (hnd : ts.Nodup) (hph : parseHeader v hdr .empty = .ok h0)
    (hbody : BodyOk ts.length items) (hsat : ∀ e ∈ es, e.sats ≠ []) (htwo : 2 ≤ es.length)
    (hinc : es.Pairwise fun a b => instant a.time < instant b.time)
    (hspan : ∀ a ∈ es, ∀ b ∈ es, instant b.time - instant a.time < 99999000000)
    (hw : Written ls (bodyLines items)) :
    ∃ o i, openObs2 v (hdr ++ endl :: ls) = .ok o ∧ o.rest = ls ∧ o.cfg.types = ts ∧ o.st.hdr = { h0 with interval := some i } ∧
      o.records.yields.map (·.1) = (es.map (recsOf ts)).flatten ∧
      (∀ y ∈ o.records.yields, y.2.hdr = o.st.hdr) ∧ (∃ s, o.records.stop = .ok s) := by
  let cfg : Cfg2 := ⟨v, ts, linesPerRec ts.length⟩
  have hcfg : CfgOk cfg := ⟨rfl, hnd⟩
  have hok : ∀ e ∈ es, e.Ok ts.length := by rw [hes]; exact epochsOf_ok hbody
  have hitems : ∀ i ∈ items, i.Ok cfg.types.length := fun i hi => (hbody i hi).1
  have hdeliver : ∀ st, deliver cfg st items = deliver cfg st (es.map .obs) := by
    intro st; rw [hes]; exact deliver_quiet cfg ts.length st items hbody
  have hleg : ∀ e ∈ es, Legal e.time := fun e he => (hok e he).1
  have hdt : (es.map (·.time)).Nodup := by
    rw [List.Nodup, List.pairwise_map]
    refine hinc.imp ?_
    intro a b hab h; rw [h] at hab; omega
  -- first reading
  have hb1 := readRecords2_body hcfg ⟨h0, none⟩ items hitems ls [] hw
  rw [List.append_nil, hdeliver] at hb1
  obtain ⟨Y, st1, hd1, hY1, hst1, hYh1, hlast⟩ := deliver_obs cfg ⟨h0, none⟩ es hdt (by simp)
  rw [hd1] at hb1
  have hrun : readRecords2 cfg ⟨h0, none⟩ ls = ⟨Y, .ok st1⟩ := by
    rw [hb1]; simp [readRecords2, readLoop]
  have htimes : Y.map (·.1.epoch) = (es.map fun e => List.replicate e.sats.length e.time).flatten := by
    rw [← recs_times cfg.types, ← hY1, List.map_map]; rfl
  obtain ⟨e1, e2, es', rfl⟩ : ∃ e1 e2 es', es = e1 :: e2 :: es' := by
    match es, htwo with
    | e1 :: e2 :: es', _ => exact ⟨e1, e2, es', rfl⟩
  have hlegY : ∀ y ∈ Y, Legal y.1.epoch := by
    have := readRecords2_legal cfg ls.length ⟨h0, none⟩ ls (Nat.le_refl _)
    rw [hrun] at this; exact this
  have hsubsY : subs (Y.map (·.1.epoch)) = spacings (Y.map (·.1.epoch)) := subs_eq_spacings (by
    intro t ht; obtain ⟨y, hy, rfl⟩ := List.mem_map.1 ht; exact hlegY y hy)
  have hne12 : e1.time ≠ e2.time := by
    have := (List.pairwise_cons.1 hinc).1 e2 (by simp)
    intro h; rw [h] at this; omega
  have hSne : spacings (Y.map (·.1.epoch)) ≠ [] := by
    rw [← hsubsY, htimes]
    intro h
    have h1 := hsat e1 (by simp)
    have h2 := hsat e2 (by simp)
    obtain ⟨s1, r1, hs1⟩ := List.exists_cons_of_ne_nil h1
    obtain ⟨s2, r2, hs2⟩ := List.exists_cons_of_ne_nil h2
    simp only [List.map_cons, List.flatten_cons, hs1, hs2, List.length_cons, List.replicate_succ, List.cons_append] at h
    exact hne12 (subs_eq_nil h e2.time (by simp)).symm
  -- the interval
  obtain ⟨g1, g2⟩ := getInterval_spec (n := 10) (by omega) ⟨h0, none⟩ ⟨Y, .ok st1⟩ hlegY
  have hpos : ∀ d ∈ spacings (Y.map (·.1.epoch)), 0 < d ∧ d < 99999000000 := by
    intro d hd
    rw [htimes] at hd
    obtain ⟨h1, a, ha, b, hb, rfl⟩ := spacings_increasing hleg hinc d hd
    exact ⟨h1, hspan a ha b hb⟩
  -- the state left behind
  have hfirst : ∃ i stL, getInterval 10 ⟨h0, none⟩ ⟨Y, .ok st1⟩ = .ok (i, stL) ∧ 0 < i ∧ i < 99999000000 ∧
      stL.hdr = h0 ∧ stL.preceding ≠ some e1.time := by
    by_cases hlen : 10 ≤ (spacings (Y.map (·.1.epoch))).length
    · obtain ⟨pre, r, st', post, i, hsplit, hcnt, hmf, hgi⟩ := g1 hlen
      simp only at hsplit
      have hi := hpos i (List.mem_of_mem_take hmf.1)
      refine ⟨i, st', hgi, hi.1, hi.2, hYh1 (r, st') (by rw [hsplit]; simp), ?_⟩
      -- which part of the file the record comes from
      let stA : St2 := ⟨h0, some e1.time⟩
      let stB : St2 := ⟨h0, some e2.time⟩
      have hYsplit : Y = (recsOf cfg.types e1).map (·, (⟨h0, none⟩ : St2)) ++ ((recsOf cfg.types e2).map (·, stA) ++
          (deliver cfg stB (es'.map .obs)).1) := by
        have hx := congrArg Prod.fst hd1
        simp only [List.map_cons, deliver, deliverItem] at hx
        rw [if_neg (by simp), if_neg (by simpa using hne12)] at hx
        exact hx.symm
      have hlate : ∀ y ∈ (deliver cfg stB (es'.map .obs)).1, y.2.preceding ≠ some e1.time := by
        simp only [List.map_cons, List.nodup_cons] at hdt
        refine deliver_preceding cfg stB e1.time es' hdt.2.2 ?_ (head_ne hdt.2.1 stA) ?_
        · intro e he h
          apply hdt.1
          simp only [List.mem_cons]
          exact Or.inr (List.mem_map.2 ⟨e, he, h.symm⟩)
        · simp only [stB, ne_eq, Option.some.injEq]; exact fun h => hne12 h.symm
      by_cases hpos2 : pre.length < (recsOf cfg.types e1).length + (recsOf cfg.types e2).length
      · exfalso
        have hpfx : (pre ++ [(r, st')]) <+: (recsOf cfg.types e1).map (·, (⟨h0, none⟩ : St2)) ++
            (recsOf cfg.types e2).map (·, stA) := by
          have h1 : pre ++ [(r, st')] <+: Y := ⟨post, by rw [hsplit]; simp⟩
          have h2 : (recsOf cfg.types e1).map (·, (⟨h0, none⟩ : St2)) ++ (recsOf cfg.types e2).map (·, stA) <+: Y :=
            ⟨_, by rw [hYsplit, List.append_assoc]⟩
          exact List.prefix_of_prefix_length_le h1 h2 (by simp; omega)
        obtain ⟨suf, hsuf⟩ := hpfx
        have hl2 : (subs ((pre ++ [(r, st')]).map (·.1.epoch))).length ≤ 1 := by
          have hp := subs_prefix (l := (pre ++ [(r, st')]).map (·.1.epoch)) (m := suf.map (·.1.epoch))
          rw [← List.map_append, hsuf] at hp
          refine le_trans hp.length_le ?_
          rw [List.map_append]
          refine subs_two_const _ _ e1.time e2.time ?_ ?_
          · intro x hx
            rw [List.map_map] at hx
            obtain ⟨y, hy, rfl⟩ := List.mem_map.1 hx
            exact recsOf_epoch y hy
          · intro x hx
            rw [List.map_map] at hx
            obtain ⟨y, hy, rfl⟩ := List.mem_map.1 hx
            exact recsOf_epoch y hy
        rw [subs_eq_spacings (by
          intro t ht
          obtain ⟨y, hy, rfl⟩ := List.mem_map.1 ht
          apply hlegY
          rw [hsplit]
          simp only [List.mem_append, List.mem_cons] at hy ⊢
          rcases hy with h | h
          · exact Or.inl h
          · exact Or.inr (Or.inl (by simpa using h)))] at hl2
        omega
      · apply hlate (r, st')
        have hget : Y[pre.length]? = some (r, st') := by rw [hsplit]; simp
        rw [hYsplit, ← List.append_assoc, List.getElem?_append_right (by simp; omega)] at hget
        exact List.mem_of_getElem? hget
    · obtain ⟨_, _, g3⟩ := g2 (by dsimp only; omega)
      obtain ⟨i, hmf, hgi⟩ := g3 st1 rfl hSne
      have hi := hpos i hmf.1
      refine ⟨i, st1, hgi, hi.1, hi.2, hst1, ?_⟩
      rw [hlast]
      rw [List.getLast?_cons_cons]
      cases hg : (e2 :: es').getLast? with
      | none => simp at hg
      | some x =>
        simp only [ne_eq, Option.some.injEq]
        intro h
        simp only [List.map_cons, List.nodup_cons] at hdt
        apply hdt.1
        exact List.mem_map.2 ⟨x, List.mem_of_mem_getLast? hg, h⟩
  obtain ⟨i, stL, hgi, hi0, hi1, hLh, hLp⟩ := hfirst
  -- the stored value
  have hparse : ∃ w, parseInterval v (padLeft 10 (fmtFixed3 ((i : Rat) / 1000000))) = .ok w := by
    have hsmall : (roundHalfEven ((i : Rat) / 1000000 * 1000)).natAbs < 100000000 := by
      have a1 : (0 : Rat) ≤ (i : Rat) := by exact_mod_cast hi0.le
      have a2 : (i : Rat) < 99999000000 := by exact_mod_cast hi1
      have b1 : (0 : Int) ≤ roundHalfEven ((i : Rat) / 1000000 * 1000) := roundHalfEven_mono_int (by push_cast; linarith)
      have b2 : roundHalfEven ((i : Rat) / 1000000 * 1000) ≤ 99999000 := roundHalfEven_le_int (by push_cast; linarith)
      omega
    by_cases hv : v = 200
    · subst hv
      exact ⟨_, parseInterval_200 (by have : (0 : Rat) < (i : Rat) := by exact_mod_cast hi0
                                      positivity) hsmall⟩
    · exact ⟨_, parseInterval_later hv hsmall⟩
  obtain ⟨w, hw2⟩ := hparse
  refine ⟨⟨cfg, { stL with hdr := { stL.hdr with interval := some w } }, ls⟩, w, ?_, rfl, rfl, ?_, ?_⟩
  · unfold openObs2
    rw [splitHeader2_spec hdr ls endl hh (headerLabel_contains hend)]
    simp only [hts, ok_bind, hph]
    rw [show (⟨v, ts, linesPerRec ts.length⟩ : Cfg2) = cfg from rfl, hrun, hgi]
    simp only [ok_bind, hw2, pure, Except.pure]
    rw [afterHeader_spec hdr ls endl (fun l hl h => by
      have := headerLabel_contains h; rw [hh l hl] at this; simp at this) hend]
  · simp only [hLh]
  · -- second reading
    obtain ⟨Y2, st2, hd2, hY2, hst2, hYh2, _⟩ := deliver_obs cfg
      { stL with hdr := { stL.hdr with interval := some w } } (e1 :: e2 :: es') hdt (by
        intro e he; simp only [List.head?_cons, Option.some.injEq] at he; subst he; exact hLp)
    have hb2 := readRecords2_body hcfg { stL with hdr := { stL.hdr with interval := some w } } _ hitems ls [] hw
    rw [List.append_nil, hdeliver, hd2] at hb2
    have hrun2 : readRecords2 cfg { stL with hdr := { stL.hdr with interval := some w } } ls = ⟨Y2, .ok st2⟩ := by
      rw [hb2]; simp [readRecords2, readLoop]
    unfold Obs2.records
    simp only
    rw [hrun2]
    exact ⟨hY2, hYh2, st2, rfl⟩

end Verif.Proofs
