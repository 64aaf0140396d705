import Verif.Spec.Moved
import Verif.Proofs.Obs2File
import Verif.Proofs.Program
import Verif.Props.Header
/-! # RINEX 2 files with positions announced inside -/
namespace Verif.Proofs
open Verif.Py Verif.Model Verif.Spec Verif.Props

/-- a position as the reader keeps it -/
def xyzList (p : Pos) : List PyFloat := [.fin p.x, .fin p.y, .fin p.z]

theorem posOf_xyzList (p : Pos) : posOf (xyzList p) = some p := rfl

theorem saysPosition_pos (hs : List HLine) (p : Pos) :
    (hs.findSome? HLine.saysPosition).getD (xyzList p) = xyzList ((hs.findSome? HLine.pos).getD p) := by
  induction hs with
  | nil => rfl
  | cons h hs ih => cases h <;> simp only [List.findSome?_cons, HLine.saysPosition, HLine.pos, Option.getD_some] <;> first | exact ih | rfl

theorem header_xyzList (hs : List HLine) : (hs.findSome? HLine.saysPosition).getD [.fin 0, .fin 0, .fin 0] = xyzList (sitePos hs) :=
  saysPosition_pos hs ⟨0, 0, 0⟩

theorem rstrip_hline (c lbl w : Str) (h : rstrip lbl = lbl) (hne : lbl ≠ []) (hw : ∀ x ∈ w, isSpace x = true) : rstrip (hline c lbl ++ w) = hline c lbl := by
  rw [rstrip_append_space _ _ hw]
  unfold hline
  rw [rstrip_append_of_ne _ _ (by rw [h]; exact hne), h]

/-- the lines of an event without trailing white space -/
theorem headerText_rstrip {v : Nat} {ls : List Str} {hs : List HLine} (ht : HeaderText v ls hs) (ho : ∀ h ∈ hs, h.InEvent) :
    ∃ hs', HeaderText v (ls.map rstrip) hs' ∧ (∀ h ∈ hs', h.Ok) ∧ hs'.findSome? HLine.pos = hs.findSome? HLine.pos ∧
      hs'.findSome? (HLine.saysVersion v) = none ∧ hs'.findSome? HLine.saysFirstObs = none ∧ hs'.findSome? (HLine.saysInterval v) = none := by
  induction ls generalizing hs with
  | nil =>
    cases hs with
    | nil => exact ⟨[], trivial, by simp, rfl, rfl, rfl, rfl⟩
    | cons => simp [HeaderText] at ht
  | cons l ls ih =>
    cases hs with
    | nil => simp [HeaderText] at ht
    | cons h hs =>
      obtain ⟨⟨w, rfl, hw⟩, ht⟩ := ht
      obtain ⟨hs', i1, i2, i3, i4, i5, i6⟩ := ih ht fun x hx => ho x (by simp [hx])
      have hin := ho h (by simp)
      cases h with
      | version => exact hin.elim
      | firstObs => exact hin.elim
      | interval => exact hin.elim
      | position x y z =>
        refine ⟨.position x y z :: hs', ⟨⟨[], ?_, by simp⟩, i1⟩, ?_, ?_, by simpa only [List.findSome?_cons, HLine.saysVersion] using i4, by simpa only [List.findSome?_cons, HLine.saysFirstObs] using i5,
          by simpa only [List.findSome?_cons, HLine.saysInterval] using i6⟩
        · rw [List.append_nil]
          exact rstrip_hline _ lbl3 w (by decide) (by decide) hw
        · intro h hh
          rcases List.mem_cons.1 hh with rfl | hh
          · exact hin
          · exact i2 h hh
        · simp only [List.findSome?_cons, HLine.pos]
      | other l =>
        refine ⟨.other (rstrip l) :: hs', ⟨⟨[], ?_, by simp⟩, i1⟩, ?_, by simpa only [List.findSome?_cons, HLine.pos] using i3, by simpa only [List.findSome?_cons, HLine.saysVersion] using i4,
          by simpa only [List.findSome?_cons, HLine.saysFirstObs] using i5, by simpa only [List.findSome?_cons, HLine.saysInterval] using i6⟩
        · simp only [HLine.render, List.append_nil]
          exact rstrip_append_space _ _ hw
        · intro h hh
          rcases List.mem_cons.1 hh with rfl | hh
          · have := hin.1
            simp only [HLine.Ok] at this ⊢
            have hl : labelOf (rstrip l) = labelOf l := by
              obtain ⟨t, ht, hsp⟩ := rstrip_decomp l
              unfold labelOf
              conv => rhs; rw [ht]
              rw [List.drop_append]
              exact (rstrip_append_space _ _ fun c hc => hsp c (List.mem_of_mem_drop hc)).symm
            rw [hl]
            exact this
          · exact i2 h hh

theorem parseHeader_event {v : Nat} {e : Event} {m : Option Pos} (h : e.Announces v m) (hf : e.flag = 3 ∨ e.flag = 4) (p : Pos) (hd : HeaderVals)
    (hp : hd.xyz = xyzList p) : parseHeader v (e.body.map rstrip) hd = .ok { hd with xyz := xyzList (m.getD p) } := by
  obtain ⟨hs, h1, h2, rfl⟩ := h.1 hf
  obtain ⟨hs', i1, i2, i3, i4, i5, i6⟩ := headerText_rstrip h1 h2
  rw [C23_header v _ _ i2 i1 hd, i4, i5, i6, hp, saysPosition_pos, i3]
  simp

/-- the records of the tracked epochs, with the states of the reader -/
def tracked (types : List Str) (hd : HeaderVals) : Option DateTime → List (Epoch × Pos) → List (Rec2 × St2)
  | _, [] => []
  | prev, (e, p) :: l => (recsOf types e).map (·, ⟨{ hd with xyz := xyzList p }, prev⟩) ++ tracked types hd (some e.time) l

/-- the time of the last epoch -/
def lastOf : Option DateTime → List (Epoch × Pos) → Option DateTime
  | prev, [] => prev
  | _, (e, _) :: l => lastOf (some e.time) l

theorem deliver_track {v : Nat} {p q : Pos} {items : List Item} {l : List (Epoch × Pos)} (ht : Track v p items l q) (c : Cfg2) (hc : c.version = v)
    (hd : HeaderVals) (prev : Option DateTime) (hdt : (l.map (·.1.time)).Nodup) (hp : ∀ x ∈ l.head?, prev ≠ some x.1.time) :
    deliver c ⟨{ hd with xyz := xyzList p }, prev⟩ items = (tracked c.types hd prev l, .ok ⟨{ hd with xyz := xyzList q }, lastOf prev l⟩) := by
  induction ht generalizing prev with
  | done p => rfl
  | @epoch p e r l q _ ih =>
    simp only [List.map_cons, List.nodup_cons] at hdt
    have hne := hp (e, p) (by simp)
    simp only [deliver, deliverItem, if_neg hne]
    rw [ih (some e.time) hdt.2]
    · rfl
    · intro x hx h
      cases l with
      | nil => simp at hx
      | cons y l =>
        simp only [List.head?_cons, Option.mem_def, Option.some.injEq] at hx h
        subst hx
        exact hdt.1 (by rw [h]; simp)
  | @event p e m r l q ha _ ih =>
    simp only [deliver, deliverItem]
    by_cases hf : e.flag = 3 ∨ e.flag = 4
    · rw [if_pos hf, hc, parseHeader_event ha hf p _ rfl]
      simp only [List.nil_append]
      rw [ih prev hdt hp]
    · rw [if_neg hf]
      have := ha.2 hf
      subst this
      simp only [List.nil_append]
      rw [show (none : Option Pos).getD p = p from rfl] at ih
      rw [ih prev hdt hp]

theorem subs_chunk {n : Nat} {t b : DateTime} {l : List DateTime} (h : t ≠ b) :
    subs (List.replicate (n + 1) t ++ b :: l) = b.sub t :: subs (b :: l) := by
  induction n with
  | zero => rw [List.replicate_succ, List.replicate_zero, List.singleton_append, subs_cons_cons, if_neg h]
  | succ n ih =>
    rw [List.replicate_succ, List.cons_append, List.replicate_succ, List.cons_append, subs_cons_cons, if_pos rfl]
    rw [List.replicate_succ, List.cons_append] at ih
    exact ih

/-- where a record stands: the number of spacings up to it is the number of the epoch -/
theorem tracked_split (types : List Str) (hd : HeaderVals) (l : List (Epoch × Pos)) (prev : Option DateTime) (pre post : List (Rec2 × St2)) (x : Rec2 × St2)
    (hs : ∀ e ∈ l, e.1.sats ≠ []) (hdt : (l.map (·.1.time)).Nodup) (h : tracked types hd prev l = pre ++ x :: post) :
    ∃ k e p, l[k]? = some (e, p) ∧ x.1.epoch = e.time ∧ x.2.hdr = { hd with xyz := xyzList p } ∧
      (k = 0 → x.2.preceding = prev) ∧ (∀ j, k = j + 1 → ∃ y ∈ l, l[j]? = some y ∧ x.2.preceding = some y.1.time) ∧
      (subs ((pre ++ [x]).map (·.1.epoch))).length = k := by
  induction l generalizing prev pre with
  | nil => simp [tracked] at h
  | cons a l ih =>
    obtain ⟨e, p⟩ := a
    simp only [List.map_cons, List.nodup_cons] at hdt
    simp only [tracked] at h
    by_cases hlt : pre.length < (recsOf types e).length
    · -- in the first epoch
      have hpf : pre ++ [x] <+: (recsOf types e).map (·, (⟨{ hd with xyz := xyzList p }, prev⟩ : St2)) := by
        refine List.prefix_of_prefix_length_le (l₃ := pre ++ x :: post) ⟨post, by simp⟩ ⟨_, h⟩ ?_
        simp only [List.length_append, List.length_singleton, List.length_map]; omega
      have hall : ∀ y ∈ pre ++ [x], y.1.epoch = e.time ∧ y.2 = ⟨{ hd with xyz := xyzList p }, prev⟩ := by
        intro y hy
        obtain ⟨r, hr, rfl⟩ := List.mem_map.1 (hpf.subset hy)
        exact ⟨recsOf_epoch r hr, rfl⟩
      have hx := hall x (by simp)
      refine ⟨0, e, p, rfl, hx.1, by rw [hx.2], fun _ => by rw [hx.2], fun j hj => by omega, ?_⟩
      rw [subs_const _ e.time]
      · rfl
      · intro t ht
        obtain ⟨y, hy, rfl⟩ := List.mem_map.1 ht
        exact (hall y hy).1
    · -- later
      obtain ⟨pre', rfl⟩ : ∃ pre', pre = (recsOf types e).map (·, (⟨{ hd with xyz := xyzList p }, prev⟩ : St2)) ++ pre' := by
        have : (recsOf types e).map (·, (⟨{ hd with xyz := xyzList p }, prev⟩ : St2)) <+: pre :=
          List.prefix_of_prefix_length_le (l₃ := pre ++ x :: post) ⟨_, h⟩ ⟨_, rfl⟩ (by simp only [List.length_map]; omega)
        obtain ⟨s, hs⟩ := this
        exact ⟨s, hs.symm⟩
      rw [List.append_assoc, List.append_cancel_left_eq] at h
      obtain ⟨k, e', p', i1, i2, i3, i4, i5, i6⟩ := ih (some e.time) pre' (fun e he => hs e (by simp [he])) hdt.2 h
      refine ⟨k + 1, e', p', by simpa using i1, i2, i3, fun h => by omega, ?_, ?_⟩
      · intro j hj
        cases j with
        | zero =>
          have : k = 0 := by omega
          exact ⟨(e, p), by simp, by simp, i4 this⟩
        | succ j =>
          obtain ⟨y, y1, y2, y3⟩ := i5 j (by omega)
          exact ⟨y, by simp [y1], by simpa using y2, y3⟩
      · -- the first record after the chunk
        have hlen : (recsOf types e).length = e.sats.length := by simp [recsOf]
        obtain ⟨n, hn⟩ : ∃ n, e.sats.length = n + 1 := by
          have := hs (e, p) (by simp)
          exact ⟨e.sats.length - 1, by have : e.sats.length ≠ 0 := by rw [Ne, List.length_eq_zero_iff]; exact this
                                       omega⟩
        have hrep : ((recsOf types e).map (·, (⟨{ hd with xyz := xyzList p }, prev⟩ : St2))).map (·.1.epoch) = List.replicate (n + 1) e.time := by
          rw [List.map_map, ← hn]
          simp only [recsOf, List.map_map, Function.comp_def]
          rw [List.map_const']
        rw [List.append_assoc, List.map_append, hrep]
        have hfirst : ∃ b m, (pre' ++ [x]).map (·.1.epoch) = b :: m ∧ e.time ≠ b := by
          cases l with
          | nil => simp [tracked] at h
          | cons a2 l2 =>
            obtain ⟨e2, p2⟩ := a2
            obtain ⟨s2, r2, hs2⟩ := List.exists_cons_of_ne_nil (hs (e2, p2) (by simp))
            have hcons : ∃ y ys, tracked types hd (some e.time) ((e2, p2) :: l2) = y :: ys ∧ y.1.epoch = e2.time := by
              unfold tracked
              cases hr : recsOf types e2 with
              | nil => rw [recsOf, hs2] at hr; simp at hr
              | cons r rs => exact ⟨_, _, rfl, recsOf_epoch r (by rw [hr]; simp)⟩
            obtain ⟨y, ys, hy, hyt⟩ := hcons
            rw [hy] at h
            have hne : e.time ≠ e2.time := by
              intro hh
              exact hdt.1 (by rw [hh]; simp)
            cases pre' with
            | nil =>
              simp only [List.nil_append, List.cons.injEq] at h
              refine ⟨_, [], rfl, ?_⟩
              rw [← h.1]
              show e.time ≠ y.1.epoch
              rw [hyt]; exact hne
            | cons z zs =>
              simp only [List.cons_append, List.cons.injEq] at h
              refine ⟨_, _, rfl, ?_⟩
              rw [← h.1]
              show e.time ≠ y.1.epoch
              rw [hyt]; exact hne
        obtain ⟨b, m, hb, hbne⟩ := hfirst
        rw [hb, subs_chunk hbne, List.length_cons, ← hb, i6]

/-- the same body read from another position -/
theorem track_from {v : Nat} {p q : Pos} {items : List Item} {l : List (Epoch × Pos)} (ht : Track v p items l q) (p' : Pos) :
    ∃ l' q', Track v p' items l' q' ∧ l'.map (·.1) = l.map (·.1) ∧ (q' = q ∨ q' = p' ∧ q = p ∧ ∀ x ∈ l, x.2 = p) := by
  induction ht generalizing p' with
  | done p => exact ⟨[], p', .done p', rfl, .inr ⟨rfl, rfl, by simp⟩⟩
  | @epoch p e r l q _ ih =>
    obtain ⟨l', q', h1, h2, h3⟩ := ih p'
    refine ⟨(e, p') :: l', q', .epoch h1, by simp [h2], h3.imp id ?_⟩
    rintro ⟨a, b, c⟩
    refine ⟨a, b, fun x hx => ?_⟩
    rcases List.mem_cons.1 hx with rfl | hx
    · rfl
    · exact c x hx
  | @event p e m r l q ha _ ih =>
    cases m with
    | none =>
      obtain ⟨l', q', h1, h2, h3⟩ := ih p'
      exact ⟨l', q', .event ha h1, h2, h3⟩
    | some m =>
      obtain ⟨l', q', h1, h2, h3⟩ := ih m
      refine ⟨l', q', .event ha h1, h2, .inl ?_⟩
      rcases h3 with h3 | ⟨a, b, -⟩
      · exact h3
      · rw [a, b]; rfl

theorem track_start {v : Nat} {p q : Pos} {items : List Item} {l : List (Epoch × Pos)} (ht : Track v p items l q) :
    ∃ used, Track v (startPos l q) items used q ∧ used.map (·.1) = l.map (·.1) := by
  obtain ⟨l', q', h1, h2, h3⟩ := track_from ht (startPos l q)
  refine ⟨l', ?_, h2⟩
  rcases h3 with rfl | ⟨a, b, c⟩
  · exact h1
  · have : startPos l q = q := by
      unfold startPos
      cases hl : l[10]? with
      | none => rfl
      | some x => simp only [Option.map_some, Option.getD_some]; rw [c x (List.mem_of_getElem? hl), b]
    rw [a, this] at h1
    rwa [this]

theorem track_epochs {v : Nat} {p q : Pos} {items : List Item} {l : List (Epoch × Pos)} (ht : Track v p items l q) : l.map (·.1) = epochsOf items := by
  induction ht with
  | done p => rfl
  | epoch _ ih => simp [epochsOf, ih]
  | event _ _ ih => simpa [epochsOf] using ih

theorem lastOf_eq (l : List (Epoch × Pos)) (prev : Option DateTime) (h : l ≠ []) : ∃ x ∈ l, lastOf prev l = some x.1.time ∧ l.getLast? = some x := by
  induction l generalizing prev with
  | nil => exact absurd rfl h
  | cons a l ih =>
    cases l with
    | nil => exact ⟨a, by simp, rfl, rfl⟩
    | cons b l =>
      obtain ⟨x, h1, h2, h3⟩ := ih (some a.1.time) (by simp)
      refine ⟨x, by simp [h1], h2, ?_⟩
      rw [List.getLast?_cons_cons]; exact h3

theorem tracked_times (types : List Str) (hd : HeaderVals) (l : List (Epoch × Pos)) (prev : Option DateTime) :
    (tracked types hd prev l).map (·.1.epoch) = ((l.map (·.1)).map fun e => List.replicate e.sats.length e.time).flatten := by
  induction l generalizing prev with
  | nil => rfl
  | cons a l ih =>
    simp only [tracked, List.map_append, ih, List.map_cons, List.flatten_cons, List.map_map]
    congr 1
    simp only [recsOf, List.map_map, Function.comp_def]
    rw [List.map_const']

/-- a whole file with positions announced inside -/
theorem open_moved {v : Nat} (hdr ls : List Str) (endl : Str) (ts : List Str) (h0 : HeaderVals) (items : List Item) (seen : List (Epoch × Pos)) (p0 final : Pos)
    (hh : ∀ l ∈ hdr, contains lblEnd l = false) (hend : headerLabel endl = lblEnd) (hts : obsTypes hdr = .ok ts)
    (hnd : ts.Nodup) (hph : parseHeader v hdr .empty = .ok h0) (hp0 : h0.xyz = xyzList p0)
    (hbody : ∀ i ∈ items, i.Ok ts.length) (htr : Track v p0 items seen final) (hsat : ∀ e ∈ seen, e.1.sats ≠ []) (htwo : 2 ≤ seen.length)
    (hinc : seen.Pairwise fun a b => instant a.1.time < instant b.1.time)
    (hspan : ∀ a ∈ seen, ∀ b ∈ seen, instant b.1.time - instant a.1.time < 99999000000)
    (hw : Written ls (bodyLines items)) :
    ∃ o, ∃ i : Int, ∃ w used prev, openObs2 v (hdr ++ endl :: ls) = .ok o ∧ o.cfg.types = ts ∧
      o.st.hdr = { h0 with xyz := xyzList (startPos seen final), interval := some w } ∧
      parseInterval v (padLeft 10 (fmtFixed3 ((i : Rat) / 1000000))) = .ok w ∧ 0 < i ∧ i < 99999000000 ∧
      MostFrequent i ((spacings (seen.map (·.1.time))).take 10) ∧
      Track v (startPos seen final) items used final ∧
      o.records.yields = tracked ts { h0 with interval := some w } prev used ∧ (∃ s, o.records.stop = .ok s) := by
  let cfg : Cfg2 := ⟨v, ts, linesPerRec ts.length⟩
  have hcfg : CfgOk cfg := ⟨rfl, hnd⟩
  have hep := track_epochs htr
  have hok : ∀ e ∈ seen, e.1.Ok ts.length := by
    intro e he
    have : e.1 ∈ epochsOf items := hep ▸ List.mem_map_of_mem he
    clear hep
    revert this
    generalize e.1 = x
    clear hw htr
    induction items with
    | nil => simp [epochsOf]
    | cons i is ih =>
      cases i with
      | obs y =>
        intro hx
        simp only [epochsOf, List.mem_cons] at hx
        rcases hx with rfl | hx
        · exact hbody (.obs x) (by simp)
        · exact ih (fun i hi => hbody i (by simp [hi])) hx
      | event y => exact ih (fun i hi => hbody i (by simp [hi]))
  have hleg : ∀ e ∈ seen, Legal e.1.time := fun e he => (hok e he).1
  have hdt : (seen.map (·.1.time)).Nodup := by
    rw [List.Nodup, List.pairwise_map]
    refine hinc.imp ?_
    intro a b hab h; rw [h] at hab; omega
  have hinc' : (seen.map (·.1)).Pairwise fun a b => instant a.time < instant b.time := List.pairwise_map.2 hinc
  have hne : seen ≠ [] := by rintro rfl; simp at htwo
  -- first reading
  have h00 : h0 = { h0 with xyz := xyzList p0 } := by rw [← hp0]
  have hb1 := readRecords2_body hcfg ⟨h0, none⟩ items hbody ls [] hw
  rw [List.append_nil] at hb1
  have hd1 := deliver_track htr cfg rfl h0 none hdt (by simp)
  rw [← h00] at hd1
  rw [hd1] at hb1
  have hrun : readRecords2 cfg ⟨h0, none⟩ ls = ⟨tracked ts h0 none seen, .ok ⟨{ h0 with xyz := xyzList final }, lastOf none seen⟩⟩ := by
    rw [hb1]; simp [readRecords2, readLoop, cfg]
  have htimes := tracked_times ts h0 seen none
  have hlegY : ∀ y ∈ tracked ts h0 none seen, Legal y.1.epoch := by
    have := readRecords2_legal cfg ls.length ⟨h0, none⟩ ls (Nat.le_refl _)
    rw [hrun] at this; exact this
  have hS : spacings ((tracked ts h0 none seen).map (·.1.epoch)) = spacings (seen.map (·.1.time)) := by
    rw [htimes, spacings_epochs _ (by intro e he; obtain ⟨x, hx, rfl⟩ := List.mem_map.1 he; exact hsat x hx), List.map_map]
    rfl
  have hpos : ∀ d ∈ spacings (seen.map (·.1.time)), 0 < d ∧ d < 99999000000 := by
    intro d hd
    rw [← hS, htimes] at hd
    obtain ⟨h1, a, ha, b, hb, rfl⟩ := spacings_increasing (by intro e he; obtain ⟨x, hx, rfl⟩ := List.mem_map.1 he; exact hleg x hx) hinc' d hd
    obtain ⟨a', ha', rfl⟩ := List.mem_map.1 ha
    obtain ⟨b', hb', rfl⟩ := List.mem_map.1 hb
    exact ⟨h1, hspan a' ha' b' hb'⟩
  -- every pair of neighbours gives a spacing
  have hcount : ∀ l : List DateTime, l.Nodup → (spacings l).length = l.length - 1 := by
    intro l hl
    unfold spacings
    rw [List.length_map, List.filter_eq_self.2]
    · rw [List.length_zip, List.length_tail]; omega
    · intro x hx
      simp only [ne_eq, decide_not, Bool.not_eq_eq_eq_not, Bool.not_true, decide_eq_false_iff_not]
      exact zip_tail_rel hl x hx
  have hSl : (spacings (seen.map (·.1.time))).length = seen.length - 1 := by rw [hcount _ hdt, List.length_map]
  obtain ⟨g1, g2⟩ := getInterval_spec (n := 10) (by omega) ⟨h0, none⟩
    ⟨tracked ts h0 none seen, .ok ⟨{ h0 with xyz := xyzList final }, lastOf none seen⟩⟩ hlegY
  simp only [hS] at g1 g2
  have hfirst : ∃ i stL, getInterval 10 ⟨h0, none⟩ (readRecords2 cfg ⟨h0, none⟩ ls) = .ok (i, stL) ∧
      MostFrequent i ((spacings (seen.map (·.1.time))).take 10) ∧
      stL.hdr = { h0 with xyz := xyzList (startPos seen final) } ∧ ∀ x ∈ seen.head?, stL.preceding ≠ some x.1.time := by
    rw [hrun]
    by_cases hlen : 10 ≤ (spacings (seen.map (·.1.time))).length
    · obtain ⟨pre, r, st', post, i, hsplit, hcnt, hmf, hgi⟩ := g1 hlen
      refine ⟨i, st', hgi, hmf, ?_⟩
      obtain ⟨k, e, p, k1, k2, k3, k4, k5, k6⟩ := tracked_split ts h0 seen none pre post (r, st') hsat hdt hsplit
      rw [← subs_eq_spacings (by
        intro t ht
        obtain ⟨y, hy, rfl⟩ := List.mem_map.1 ht
        apply hlegY
        rw [hsplit]
        simp only [List.mem_append, List.mem_cons] at hy ⊢
        rcases hy with h | h
        · exact Or.inl h
        · exact Or.inr (Or.inl (by simpa using h))), k6] at hcnt
      subst hcnt
      refine ⟨?_, ?_⟩
      · rw [k3]
        unfold startPos
        rw [k1]
        rfl
      · intro x hx
        obtain ⟨y, y1, y2, y3⟩ := k5 9 rfl
        rw [y3]
        intro h
        cases seen with
        | nil => simp at hx
        | cons s seen =>
          simp only [List.head?_cons, Option.mem_def, Option.some.injEq] at hx h
          subst hx
          simp only [List.map_cons, List.nodup_cons] at hdt
          apply hdt.1
          rw [← h]
          rw [List.getElem?_cons_succ] at y2
          exact List.mem_map.2 ⟨y, List.mem_of_getElem? y2, rfl⟩
    · obtain ⟨_, _, g3⟩ := g2 (by omega)
      obtain ⟨i, hmf, hgi⟩ := g3 _ rfl (by
        intro h
        have := congrArg List.length h
        rw [hSl, List.length_nil] at this
        omega)
      refine ⟨i, _, hgi, by rw [List.take_of_length_le (by omega)]; exact hmf, ?_, ?_⟩
      · unfold startPos
        rw [List.getElem?_eq_none (by omega)]
        rfl
      · intro x hx h
        obtain ⟨y, y1, y2, y3⟩ := lastOf_eq seen none hne
        rw [show (⟨{ h0 with xyz := xyzList final }, lastOf none seen⟩ : St2).preceding = lastOf none seen from rfl, y2] at h
        cases seen with
        | nil => simp at hx
        | cons s seen =>
          simp only [List.head?_cons, Option.mem_def, Option.some.injEq] at hx h
          subst hx
          simp only [List.map_cons, List.nodup_cons] at hdt
          apply hdt.1
          rw [← h]
          cases seen with
          | nil => simp at htwo
          | cons s2 seen =>
            rw [List.getLast?_cons_cons] at y3
            exact List.mem_map.2 ⟨y, List.mem_of_mem_getLast? y3, rfl⟩
  obtain ⟨i, stL, hgi, hmf, hLh, hLp⟩ := hfirst
  obtain ⟨hi0, hi1⟩ := hpos i (List.mem_of_mem_take hmf.1)
  have hparse : ∃ w, parseInterval v (padLeft 10 (fmtFixed3 ((i : Rat) / 1000000))) = .ok w := by
    have hsmall : (roundHalfEven ((i : Rat) / 1000000 * 1000)).natAbs < 100000000 := by
      have a1 : (0 : Rat) ≤ (i : Rat) := by exact_mod_cast hi0.le
      have a2 : (i : Rat) < 99999000000 := by exact_mod_cast hi1
      have b1 : (0 : Int) ≤ roundHalfEven ((i : Rat) / 1000000 * 1000) := roundHalfEven_mono_int (by push_cast; linarith)
      have b2 : roundHalfEven ((i : Rat) / 1000000 * 1000) ≤ 99999000 := roundHalfEven_le_int (by push_cast; linarith)
      omega
    by_cases hv : v = 200
    · subst hv
      exact ⟨_, parseInterval_200 (by have : (0 : Rat) < (i : Rat) := by exact_mod_cast hi0
                                      positivity) hsmall⟩
    · exact ⟨_, parseInterval_later hv hsmall⟩
  obtain ⟨w, hw2⟩ := hparse
  obtain ⟨used, hu1, hu2⟩ := track_start htr
  have hdtu : (used.map (·.1.time)).Nodup := by
    have : used.map (·.1.time) = seen.map (·.1.time) := by
      have := congrArg (List.map Epoch.time) hu2
      simpa [List.map_map, Function.comp_def] using this
    rw [this]; exact hdt
  have hpu : ∀ x ∈ used.head?, stL.preceding ≠ some x.1.time := by
    intro x hx
    cases used with
    | nil => simp at hx
    | cons u us =>
      cases seen with
      | nil => simp at hu2
      | cons s ss =>
        simp only [List.head?_cons, Option.mem_def, Option.some.injEq] at hx
        subst hx
        simp only [List.map_cons, List.cons.injEq] at hu2
        rw [hu2.1]
        exact hLp s (by simp)
  refine ⟨⟨cfg, { stL with hdr := { stL.hdr with interval := some w } }, ls⟩, i, w, used, stL.preceding, ?_, rfl, ?_, hw2, hi0, hi1, hmf, hu1, ?_⟩
  · unfold openObs2
    rw [splitHeader2_spec hdr ls endl hh (headerLabel_contains hend)]
    simp only [hts, ok_bind, hph]
    rw [show (⟨v, ts, linesPerRec ts.length⟩ : Cfg2) = cfg from rfl, hgi]
    simp only [ok_bind, hw2, pure, Except.pure]
    rw [afterHeader_spec hdr ls endl (fun l hl h => by
      have := headerLabel_contains h; rw [hh l hl] at this; simp at this) hend]
  · simp only [hLh]
  · have hd2 := deliver_track hu1 cfg rfl { h0 with interval := some w } stL.preceding hdtu hpu
    have hb2 := readRecords2_body hcfg ⟨{ h0 with xyz := xyzList (startPos seen final), interval := some w }, stL.preceding⟩ _ hbody ls [] hw
    rw [List.append_nil, hd2] at hb2
    unfold Obs2.records
    simp only
    rw [hLh, hb2]
    refine ⟨?_, ⟨_, rfl⟩⟩
    simp [readRecords2, readLoop, cfg]

end Verif.Proofs
