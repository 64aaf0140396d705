import Verif.Spec.AnyOrder
import Verif.Proofs.Moved
/-! # RINEX 2 files with epochs in any order -/
namespace Verif.Proofs
open Verif.Py Verif.Model Verif.Spec Verif.Props

/-- the records of the tracked epochs that count, with the states of the reader -/
def trackedAny (types : List Str) (hd : HeaderVals) : Option DateTime → List (Epoch × Pos) → List (Rec2 × St2)
  | _, [] => []
  | prev, x :: l => (if prev = some x.1.time then [] else (recsOf types x.1).map (·, ⟨{ hd with xyz := xyzList x.2 }, prev⟩)) ++
      trackedAny types hd (some x.1.time) l

theorem deliver_any {v : Nat} {p q : Pos} {items : List Item} {l : List (Epoch × Pos)} (ht : Track v p items l q) (c : Cfg2) (hc : c.version = v)
    (hd : HeaderVals) (prev : Option DateTime) :
    deliver c ⟨{ hd with xyz := xyzList p }, prev⟩ items = (trackedAny c.types hd prev l, .ok ⟨{ hd with xyz := xyzList q }, lastOf prev l⟩) := by
  induction ht generalizing prev with
  | done p => rfl
  | @epoch p e r l q _ ih =>
    simp only [deliver, deliverItem]
    rw [ih (some e.time)]
    rfl
  | @event p e m r l q ha _ ih =>
    simp only [deliver, deliverItem]
    by_cases hf : e.flag = 3 ∨ e.flag = 4
    · rw [if_pos hf, hc, parseHeader_event ha hf p _ rfl]
      simp only [List.nil_append]
      rw [ih prev]
    · rw [if_neg hf]
      have := ha.2 hf
      subst this
      simp only [List.nil_append]
      rw [show (none : Option Pos).getD p = p from rfl] at ih
      rw [ih prev]

theorem recsOf_times (types : List Str) (e : Epoch) (st : St2) : ((recsOf types e).map (·, st)).map (·.1.epoch) = List.replicate e.sats.length e.time := by
  simp only [recsOf, List.map_map, Function.comp_def]
  rw [List.map_const']

theorem trackedAny_times (types : List Str) (hd : HeaderVals) (l : List (Epoch × Pos)) (prev : Option DateTime) :
    (trackedAny types hd prev l).map (·.1.epoch) = ((fresh prev l).map fun x => List.replicate x.1.sats.length x.1.time).flatten := by
  induction l generalizing prev with
  | nil => rfl
  | cons a l ih =>
    simp only [trackedAny, fresh, List.map_append, ih]
    split
    · simp
    · rw [recsOf_times, List.map_cons, List.flatten_cons]

theorem fresh_append (a b : List (Epoch × Pos)) (prev : Option DateTime) : fresh prev (a ++ b) = fresh prev a ++ fresh (lastOf prev a) b := by
  induction a generalizing prev with
  | nil => rfl
  | cons x a ih =>
    obtain ⟨e, p⟩ := x
    simp only [List.cons_append, fresh, lastOf]
    split
    · rw [ih]
    · rw [ih]; rfl

theorem lastOf_getLast (l : List (Epoch × Pos)) : lastOf none l = l.getLast?.map (·.1.time) := by
  cases l with
  | nil => rfl
  | cons x l =>
    obtain ⟨y, -, h1, h2⟩ := lastOf_eq (x :: l) none (by simp)
    rw [h1, h2]; rfl

theorem fresh_sub (prev : Option DateTime) (l : List (Epoch × Pos)) : (fresh prev l).Sublist l := by
  induction l generalizing prev with
  | nil => exact List.Sublist.refl _
  | cons x l ih =>
    unfold fresh
    split
    · exact (ih _).cons _
    · exact (ih _).cons_cons _

/-- blocks of equal times -/
theorem spacings_fresh (l : List (Epoch × Pos)) :
    spacings ((l.map fun x => List.replicate x.1.sats.length x.1.time).flatten) = spacings ((l.filter fun x => x.1.sats ≠ []).map (·.1.time)) := by
  have h1 : (l.map fun x => List.replicate x.1.sats.length x.1.time).flatten =
      (((l.filter fun x => x.1.sats ≠ []).map (·.1)).map fun e => List.replicate e.sats.length e.time).flatten := by
    induction l with
    | nil => rfl
    | cons x l ih =>
      by_cases hx : x.1.sats = []
      · rw [List.filter_cons_of_neg (by simpa using hx)]
        simp only [List.map_cons, List.flatten_cons, hx, List.length_nil, List.replicate_zero, List.nil_append]
        exact ih
      · rw [List.filter_cons_of_pos (by simpa using hx)]
        simp only [List.map_cons, List.flatten_cons]
        rw [ih]
  rw [h1, spacings_epochs, List.map_map]
  · rfl
  · intro e he
    obtain ⟨x, hx, rfl⟩ := List.mem_map.1 he
    simpa using (List.mem_filter.1 hx).2

theorem spacings_tracked (types : List Str) (hd : HeaderVals) (l : List (Epoch × Pos)) :
    spacings ((trackedAny types hd none l).map (·.1.epoch)) = spacings (obsTimes l) := by
  rw [trackedAny_times, spacings_fresh]; rfl

theorem spacings_two (a b : DateTime) (l : List DateTime) :
    spacings (a :: b :: l) = if a = b then spacings (b :: l) else (instant b - instant a) :: spacings (b :: l) := by
  unfold spacings
  simp only [List.tail_cons, List.zip_cons_cons, List.filter_cons]
  by_cases h : a = b <;> simp [h]

theorem spacings_last (l : List DateTime) (t : DateTime) (n : Nat) : spacings (l ++ List.replicate (n + 1) t) = spacings (l ++ [t]) := by
  induction l with
  | nil =>
    have := spacings_replicate t n []
    simpa using this
  | cons a l ih =>
    cases l with
    | nil =>
      have h := spacings_replicate t n []
      simp only [List.append_nil] at h
      simp only [List.cons_append, List.nil_append, List.replicate_succ, spacings_two] at h ⊢
      rw [h]
    | cons b l =>
      simp only [List.cons_append, spacings_two] at ih ⊢
      rw [ih]

/-- where a record stands -/
theorem trackedAny_split (types : List Str) (hd : HeaderVals) (l : List (Epoch × Pos)) (prev : Option DateTime) (pre post : List (Rec2 × St2)) (x : Rec2 × St2)
    (h : trackedAny types hd prev l = pre ++ x :: post) :
    ∃ a e p b n, l = a ++ (e, p) :: b ∧ x.1.epoch = e.time ∧ x.2 = ⟨{ hd with xyz := xyzList p }, lastOf prev a⟩ ∧ lastOf prev a ≠ some e.time ∧ e.sats ≠ [] ∧
      pre.map (·.1.epoch) = (trackedAny types hd prev a).map (·.1.epoch) ++ List.replicate n e.time := by
  induction l generalizing prev pre with
  | nil => simp [trackedAny] at h
  | cons y l ih =>
    obtain ⟨e, p⟩ := y
    simp only [trackedAny] at h
    by_cases hp : prev = some e.time
    · rw [if_pos hp, List.nil_append] at h
      obtain ⟨a, e', p', b, n, h1, h2, h3, h4, h5, h6⟩ := ih (some e.time) pre h
      refine ⟨(e, p) :: a, e', p', b, n, by rw [h1]; rfl, h2, h3, h4, h5, ?_⟩
      rw [h6]
      simp only [trackedAny, if_pos hp, List.nil_append]
    · rw [if_neg hp] at h
      by_cases hlt : pre.length < (recsOf types e).length
      · have hpf : pre ++ [x] <+: (recsOf types e).map (·, (⟨{ hd with xyz := xyzList p }, prev⟩ : St2)) := by
          refine List.prefix_of_prefix_length_le (l₃ := pre ++ x :: post) ⟨post, by simp⟩ ⟨_, h⟩ ?_
          simp only [List.length_append, List.length_singleton, List.length_map]; omega
        have hall : ∀ y ∈ pre ++ [x], y.1.epoch = e.time ∧ y.2 = ⟨{ hd with xyz := xyzList p }, prev⟩ := by
          intro y hy
          obtain ⟨r, hr, rfl⟩ := List.mem_map.1 (hpf.subset hy)
          exact ⟨recsOf_epoch r hr, rfl⟩
        have hx := hall x (by simp)
        refine ⟨[], e, p, l, pre.length, rfl, hx.1, hx.2, hp, ?_, ?_⟩
        · intro h0
          rw [recsOf, h0] at hlt
          simp at hlt
        · simp only [trackedAny, List.map_nil, List.nil_append]
          rw [List.eq_replicate_iff]
          refine ⟨by simp, ?_⟩
          intro t ht
          obtain ⟨y, hy, rfl⟩ := List.mem_map.1 ht
          exact (hall y (by simp [hy])).1
      · obtain ⟨pre', rfl⟩ : ∃ pre', pre = (recsOf types e).map (·, (⟨{ hd with xyz := xyzList p }, prev⟩ : St2)) ++ pre' := by
          have : (recsOf types e).map (·, (⟨{ hd with xyz := xyzList p }, prev⟩ : St2)) <+: pre :=
            List.prefix_of_prefix_length_le (l₃ := pre ++ x :: post) ⟨_, h⟩ ⟨_, rfl⟩ (by simp only [List.length_map]; omega)
          obtain ⟨s, hs⟩ := this
          exact ⟨s, hs.symm⟩
        rw [List.append_assoc, List.append_cancel_left_eq] at h
        obtain ⟨a, e', p', b, n, h1, h2, h3, h4, h5, h6⟩ := ih (some e.time) pre' h
        refine ⟨(e, p) :: a, e', p', b, n, by rw [h1]; rfl, h2, h3, h4, h5, ?_⟩
        rw [List.map_append, h6]
        simp only [trackedAny, if_neg hp, List.map_append, List.append_assoc]

/-- `get_interval` stops at the first record that completes the spacings -/
theorem getInterval_first {n : Nat} (hn : 0 < n) (st : St2) (run : Run2) (hl : ∀ y ∈ run.yields, Legal y.1.epoch)
    (h : n ≤ (spacings (run.yields.map (·.1.epoch))).length) :
    ∃ pre r st' post i, run.yields = pre ++ (r, st') :: post ∧ (spacings (pre.map (·.1.epoch))).length + 1 = n ∧
      (spacings (pre.map (·.1.epoch) ++ [r.epoch])).length = n ∧
      MostFrequent i ((spacings (run.yields.map (·.1.epoch))).take n) ∧ getInterval n st run = .ok (i, st') := by
  have hsub : subs (run.yields.map (·.1.epoch)) = spacings (run.yields.map (·.1.epoch)) := subs_eq_spacings (by
    intro t ht; obtain ⟨y, hy, rfl⟩ := List.mem_map.1 ht; exact hl y hy)
  cases hy : run.yields with
  | nil => rw [hy] at h; simp [spacings] at h; omega
  | cons p ys =>
    obtain ⟨r0, s0⟩ := p
    rw [← hsub, hy] at h
    rw [hy] at hsub
    rcases collectDeltas_spec n ys r0.epoch [] s0 (by simpa using hn) with ⟨h1, -⟩ | ⟨h1, pre, r, st', post, h2, h3, h4, h5⟩
    · simp only [List.length_nil, Nat.zero_add] at h1
      simp only [List.map_cons] at h
      omega
    · simp only [List.length_nil, Nat.zero_add, List.reverse_nil, List.nil_append] at h3 h4 h5
      have hpre : subs (r0.epoch :: (pre.map (·.1.epoch) ++ [r.epoch])) <+: subs (r0.epoch :: ys.map (·.1.epoch)) := by
        rw [h2]
        have := subs_prefix (l := r0.epoch :: (pre.map (·.1.epoch) ++ [r.epoch])) (m := post.map (·.1.epoch))
        simpa using this
      have htake : subs (r0.epoch :: (pre.map (·.1.epoch) ++ [r.epoch])) = (subs (r0.epoch :: ys.map (·.1.epoch))).take n := by
        have := List.prefix_iff_eq_take.1 hpre
        rw [this]; congr 1
      have hlegp : ∀ t ∈ r0.epoch :: (pre.map (·.1.epoch) ++ [r.epoch]), Legal t := by
        intro t ht
        have : t ∈ run.yields.map (·.1.epoch) := by
          rw [hy, h2]
          simp only [List.map_cons, List.map_append, List.mem_cons, List.mem_append, List.not_mem_nil, or_false] at ht ⊢
          rcases ht with h | h | h
          · exact .inl h
          · exact .inr (.inl h)
          · exact .inr (.inr (.inl h))
        obtain ⟨y, hy', rfl⟩ := List.mem_map.1 this
        exact hl y hy'
      obtain ⟨i, hi, hm⟩ := pickInterval_spec (subs (r0.epoch :: (pre.map (·.1.epoch) ++ [r.epoch]))) (by
        intro hnil
        rw [hnil] at h4; simp at h4; omega)
      refine ⟨(r0, s0) :: pre, r, st', post, i, by rw [h2]; rfl, ?_, ?_, ?_, ?_⟩
      · rw [← subs_eq_spacings]
        · exact h3
        · intro t ht
          apply hlegp
          simp only [List.map_cons, List.mem_cons, List.mem_append] at ht ⊢
          exact ht.imp id .inl
      · rw [subs_eq_spacings hlegp] at h4
        exact h4
      · rw [← hsub]
        simp only [List.map_cons]
        rw [← htake]
        exact hm
      · have hstart : collectDeltas n ((r0, s0) :: ys) none [] st = collectDeltas n ys (some r0.epoch) [] s0 := rfl
        simp only [getInterval, hy, hstart, h5, hi]
        rfl

/-- a whole file with any epochs -/
theorem open_any {v : Nat} (hdr ls : List Str) (endl : Str) (ts : List Str) (h0 : HeaderVals) (items : List Item) (seen : List (Epoch × Pos)) (p0 final : Pos) (i : Int)
    (hh : ∀ l ∈ hdr, contains lblEnd l = false) (hend : headerLabel endl = lblEnd) (hts : obsTypes hdr = .ok ts)
    (hnd : ts.Nodup) (hph : parseHeader v hdr .empty = .ok h0) (hp0 : h0.xyz = xyzList p0)
    (hbody : ∀ i ∈ items, i.Ok ts.length) (htr : Track v p0 items seen final) (hi : IntervalIs seen i) (hw : Written ls (bodyLines items)) :
    ∃ o w p m used q, openObs2 v (hdr ++ endl :: ls) = .ok o ∧ o.cfg.types = ts ∧
      o.st.hdr = { h0 with xyz := xyzList p, interval := some w } ∧
      parseInterval v (padLeft 10 (fmtFixed3 ((i : Rat) / 1000000))) = .ok w ∧
      Left seen final p m ∧ Track v p items used q ∧
      o.records.yields = trackedAny ts { h0 with interval := some w } m used ∧ (∃ s, o.records.stop = .ok s) := by
  let cfg : Cfg2 := ⟨v, ts, linesPerRec ts.length⟩
  have hcfg : CfgOk cfg := ⟨rfl, hnd⟩
  -- first reading
  have h00 : h0 = { h0 with xyz := xyzList p0 } := by rw [← hp0]
  have hb1 := readRecords2_body hcfg ⟨h0, none⟩ items hbody ls [] hw
  rw [List.append_nil] at hb1
  have hd1 := deliver_any htr cfg rfl h0 none
  rw [← h00] at hd1
  rw [hd1] at hb1
  have hrun : readRecords2 cfg ⟨h0, none⟩ ls = ⟨trackedAny ts h0 none seen, .ok ⟨{ h0 with xyz := xyzList final }, lastOf none seen⟩⟩ := by
    rw [hb1]; simp [readRecords2, readLoop, cfg]
  have hlegY : ∀ y ∈ trackedAny ts h0 none seen, Legal y.1.epoch := by
    have := readRecords2_legal cfg ls.length ⟨h0, none⟩ ls (Nat.le_refl _)
    rw [hrun] at this; exact this
  have hS := spacings_tracked ts h0 seen
  have hfirst : ∃ stL p m, getInterval 10 ⟨h0, none⟩ (readRecords2 cfg ⟨h0, none⟩ ls) = .ok (i, stL) ∧
      stL = ⟨{ h0 with xyz := xyzList p }, m⟩ ∧ Left seen final p m := by
    rw [hrun]
    by_cases hlen : 10 ≤ (spacings (obsTimes seen)).length
    · obtain ⟨pre, r, st', post, i', hsplit, hc1, hc2, hmf, hgi⟩ := getInterval_first (n := 10) (by omega) ⟨h0, none⟩
        ⟨trackedAny ts h0 none seen, .ok ⟨{ h0 with xyz := xyzList final }, lastOf none seen⟩⟩ hlegY (by simp only [hS]; exact hlen)
      simp only [hS] at hmf
      have := mostFrequent_unique hi.frequent hmf
      subst this
      obtain ⟨a, e, p, b, n, k1, k2, k3, k4, k5, k6⟩ := trackedAny_split ts h0 seen none pre post (r, st') hsplit
      refine ⟨st', p, lastOf none a, hgi, k3, ?_⟩
      simp only at k2
      -- the record is the first one of its epoch
      cases n with
      | succ n =>
        exfalso
        rw [k6, k2, List.append_assoc, show List.replicate (n + 1) e.time ++ [e.time] = List.replicate (n + 2) e.time by
          rw [List.replicate_succ' (n := n + 1)], spacings_last] at hc2
        rw [k6, spacings_last] at hc1
        omega
      | zero =>
        simp only [List.replicate_zero, List.append_nil] at k6
        rw [k6] at hc1 hc2
        rw [lastOf_getLast]
        refine .stopped a e p b k1 ?_ ?_
        · rw [spacings_tracked] at hc1
          omega
        · rw [← spacings_tracked ts h0, trackedAny_times, fresh_append]
          have hf : fresh (lastOf none a) [(e, p)] = [(e, p)] := by
            simp only [fresh, if_neg k4]
          rw [hf, List.map_append, List.flatten_append, ← trackedAny_times ts h0]
          obtain ⟨m, hm⟩ : ∃ m, e.sats.length = m + 1 :=
            ⟨e.sats.length - 1, by have : e.sats.length ≠ 0 := by rw [Ne, List.length_eq_zero_iff]; exact k5
                                   omega⟩
          simp only [List.map_cons, List.map_nil, List.flatten_cons, List.flatten_nil, List.append_nil, hm]
          rw [spacings_last, ← k2]
          exact hc2
    · obtain ⟨_, g2⟩ := getInterval_spec (n := 10) (by omega) ⟨h0, none⟩
        ⟨trackedAny ts h0 none seen, .ok ⟨{ h0 with xyz := xyzList final }, lastOf none seen⟩⟩ hlegY
      simp only [hS] at g2
      obtain ⟨-, -, g3⟩ := g2 (by omega)
      have hfr := hi.frequent
      obtain ⟨i', hmf, hgi⟩ := g3 _ rfl (by
        intro h
        rw [h] at hfr
        simp [MostFrequent] at hfr)
      rw [List.take_of_length_le (by omega)] at hfr
      have := mostFrequent_unique hfr hmf
      subst this
      refine ⟨_, final, lastOf none seen, hgi, rfl, ?_⟩
      rw [lastOf_getLast]
      exact .whole (by omega)
  obtain ⟨stL, p, m, hgi, rfl, hleft⟩ := hfirst
  have hparse : ∃ w, parseInterval v (padLeft 10 (fmtFixed3 ((i : Rat) / 1000000))) = .ok w := by
    have hsmall : (roundHalfEven ((i : Rat) / 1000000 * 1000)).natAbs < 100000000 := by
      have a1 : (0 : Rat) ≤ (i : Rat) := by exact_mod_cast hi.forward
      have a2 : (i : Rat) < 99999000000 := by exact_mod_cast hi.short
      have b1 : (0 : Int) ≤ roundHalfEven ((i : Rat) / 1000000 * 1000) := roundHalfEven_mono_int (by push_cast; linarith)
      have b2 : roundHalfEven ((i : Rat) / 1000000 * 1000) ≤ 99999000 := roundHalfEven_le_int (by push_cast; linarith)
      omega
    by_cases hv : v = 200
    · subst hv
      exact ⟨_, parseInterval_200 (by have : (0 : Rat) ≤ (i : Rat) := by exact_mod_cast hi.forward
                                      positivity) hsmall⟩
    · exact ⟨_, parseInterval_later hv hsmall⟩
  obtain ⟨w, hw2⟩ := hparse
  obtain ⟨used, q, hu, -⟩ := track_from htr p
  refine ⟨⟨cfg, ⟨{ h0 with xyz := xyzList p, interval := some w }, m⟩, ls⟩, w, p, m, used, q, ?_, rfl, rfl, hw2, hleft, hu, ?_⟩
  · unfold openObs2
    rw [splitHeader2_spec hdr ls endl hh (headerLabel_contains hend)]
    simp only [hts, ok_bind, hph]
    rw [show (⟨v, ts, linesPerRec ts.length⟩ : Cfg2) = cfg from rfl, hgi]
    simp only [ok_bind, hw2, pure, Except.pure]
    rw [afterHeader_spec hdr ls endl (fun l hl h => by
      have := headerLabel_contains h; rw [hh l hl] at this; simp at this) hend]
  · have hd2 := deliver_any hu cfg rfl { h0 with interval := some w } m
    have hb2 := readRecords2_body hcfg ⟨{ h0 with xyz := xyzList p, interval := some w }, m⟩ _ hbody ls [] hw
    rw [List.append_nil, hd2] at hb2
    unfold Obs2.records
    simp only
    rw [hb2]
    refine ⟨?_, ⟨_, rfl⟩⟩
    simp [readRecords2, readLoop, cfg]

/-- without two different times the file is rejected -/
theorem open_none {v : Nat} (hdr ls : List Str) (endl : Str) (ts : List Str) (h0 : HeaderVals) (items : List Item) (seen : List (Epoch × Pos)) (p0 final : Pos)
    (hh : ∀ l ∈ hdr, contains lblEnd l = false) (hend : headerLabel endl = lblEnd) (hts : obsTypes hdr = .ok ts)
    (hnd : ts.Nodup) (hph : parseHeader v hdr .empty = .ok h0) (hp0 : h0.xyz = xyzList p0)
    (hbody : ∀ i ∈ items, i.Ok ts.length) (htr : Track v p0 items seen final) (hi : spacings (obsTimes seen) = []) (hw : Written ls (bodyLines items)) :
    openObs2 v (hdr ++ endl :: ls) = .error .rinex := by
  let cfg : Cfg2 := ⟨v, ts, linesPerRec ts.length⟩
  have hcfg : CfgOk cfg := ⟨rfl, hnd⟩
  have h00 : h0 = { h0 with xyz := xyzList p0 } := by rw [← hp0]
  have hb1 := readRecords2_body hcfg ⟨h0, none⟩ items hbody ls [] hw
  rw [List.append_nil] at hb1
  have hd1 := deliver_any htr cfg rfl h0 none
  rw [← h00] at hd1
  rw [hd1] at hb1
  have hrun : readRecords2 cfg ⟨h0, none⟩ ls = ⟨trackedAny ts h0 none seen, .ok ⟨{ h0 with xyz := xyzList final }, lastOf none seen⟩⟩ := by
    rw [hb1]; simp [readRecords2, readLoop, cfg]
  have hlegY : ∀ y ∈ trackedAny ts h0 none seen, Legal y.1.epoch := by
    have := readRecords2_legal cfg ls.length ⟨h0, none⟩ ls (Nat.le_refl _)
    rw [hrun] at this; exact this
  have hS := spacings_tracked ts h0 seen
  obtain ⟨_, g2⟩ := getInterval_spec (n := 10) (by omega) ⟨h0, none⟩
    ⟨trackedAny ts h0 none seen, .ok ⟨{ h0 with xyz := xyzList final }, lastOf none seen⟩⟩ hlegY
  simp only [hS, hi] at g2
  have := (g2 (by simp)).2.1 _ rfl trivial
  unfold openObs2
  rw [splitHeader2_spec hdr ls endl hh (headerLabel_contains hend)]
  simp only [hts, ok_bind, hph]
  rw [show (⟨v, ts, linesPerRec ts.length⟩ : Cfg2) = cfg from rfl, hrun, this]
  rfl

end Verif.Proofs
