import Verif.Props.Rinex2
/-!
# Properties C09 (whole files), C12 - C16: RINEX 2 observation files, from opening to the last record
-/
namespace Verif.Props
open Verif.Py Verif.Model Verif.Spec Verif.Proofs

/-! ## C09: whole files -/

/-- the header of a RINEX 2 file: the values of its labelled lines; the lines with the types do not matter -/
theorem header2_parsed (v : Nat) (before tls after : List Str) (hs1 hs2 : List HLine) (ts : List Str) (htl : TypeText tls ts)
    (h1 : HeaderText v before hs1) (h2 : HeaderText v after hs2) (hok1 : ∀ h ∈ hs1 ++ hs2, h.Ok)
    (ht : ∀ t ∈ ts, t.length = 2) (hcnt : ts.length < 1000000) :
    parseHeader v (before ++ tls ++ after) .empty = .ok
      { verType := (hs1 ++ hs2).findSome? (HLine.saysVersion v)
        tofo := (hs1 ++ hs2).findSome? HLine.saysFirstObs
        xyz := ((hs1 ++ hs2).findSome? HLine.saysPosition).getD [.fin 0, .fin 0, .fin 0]
        interval := (hs1 ++ hs2).findSome? (HLine.saysInterval v) } := by
  have happ : ∀ {a b : List Str} {x y : List HLine}, HeaderText v a x → HeaderText v b y → HeaderText v (a ++ b) (x ++ y) := by
    intro a
    induction a with
    | nil => intro b x y hx hy; cases x with
      | nil => exact hy
      | cons => simp [HeaderText] at hx
    | cons l a ih => intro b x y hx hy; cases x with
      | nil => simp [HeaderText] at hx
      | cons h x => exact ⟨hx.1, ih hx.2 hy⟩
  have hoth : ∀ (a b : List Str), List.Forall₂ (fun l c : Str => ∃ w, l = c ++ w ∧ ∀ x ∈ w, isSpace x = true) a b → HeaderText v a (b.map .other) := by
    intro a b h
    induction h with
    | nil => trivial
    | cons h _ ih => exact ⟨h, ih⟩
  have hlab : ∀ l ∈ typeLines ts, labelOf l = c% "# / TYPES OF OBSERV" := by
    intro l hl
    have hcols : ∀ c : List Str, (∀ t ∈ c, t.length = 2) → c.length ≤ 9 → ((c.map (padLeft 6)).flatten).length ≤ 54 := by
      intro c hc hl
      have := typeCols_length hc
      unfold typeCols at this
      omega
    simp only [typeLines, List.mem_cons, List.mem_map] at hl
    rcases hl with rfl | ⟨c, hc, rfl⟩
    · rw [show labelOf = headerLabel from rfl]
      have := headerLabel_hline (c := padLeft 6 (natStr ts.length) ++ ((ts.take 9).map (padLeft 6)).flatten)
        (lbl := c% "# / TYPES OF OBSERV") (w := []) ?_ (by decide) (by simp)
      · simpa using this
      · have a := padCount_length hcnt
        have b := hcols (ts.take 9) (fun t h => ht t (List.mem_of_mem_take h)) (by simp)
        simp only [List.length_append, a]; omega
    · rw [show labelOf = headerLabel from rfl]
      have := headerLabel_hline (c := List.replicate 6 ' ' ++ (c.map (padLeft 6)).flatten)
        (lbl := c% "# / TYPES OF OBSERV") (w := []) ?_ (by decide) (by simp)
      · simpa using this
      · have hc9 : ∀ (f : Nat) (l : List Str), ∀ c ∈ pieces 9 f l, c.length ≤ 9 := by
          intro f
          induction f with
          | zero => simp [pieces]
          | succ f ih => intro l c hc; cases l with
            | nil => simp [pieces] at hc
            | cons x xs =>
              simp only [pieces, List.mem_cons] at hc
              rcases hc with rfl | hc
              · simp
              · exact ih _ c hc
        have b := hcols c (fun t h => ht t (List.mem_of_mem_drop (chunks_mem (by omega) hc h))) (hc9 _ _ c hc)
        simp only [List.length_append, List.length_replicate]; omega
  have hhead : HeaderText v (before ++ tls ++ after) (hs1 ++ (typeLines ts).map .other ++ hs2) :=
    happ (happ h1 (hoth _ _ htl)) h2
  have hokAll : ∀ h ∈ hs1 ++ (typeLines ts).map .other ++ hs2, h.Ok := by
    intro h hh
    simp only [List.mem_append, List.mem_map] at hh
    rcases hh with (hh | ⟨l, hl, rfl⟩) | hh
    · exact hok1 h (by simp [hh])
    · show labelOf l ∉ [lbl1, lbl2, lbl3, lbl4]
      rw [hlab l hl]; decide
    · exact hok1 h (by simp [hh])
  have hph := C23_header v _ _ hokAll hhead .empty
  have hfind : ∀ {α : Type} (f : HLine → Option α), (∀ l, f (.other l) = none) →
      (hs1 ++ (typeLines ts).map HLine.other ++ hs2).findSome? f = (hs1 ++ hs2).findSome? f := by
    intro α f hf
    have : ((typeLines ts).map HLine.other).findSome? f = none := by
      rw [List.findSome?_eq_none_iff]
      intro x hx
      obtain ⟨l, _, rfl⟩ := List.mem_map.1 hx
      exact hf l
    simp [List.findSome?_append, this]
  rw [hph, hfind _ (by intro l; rfl), hfind _ (by intro l; rfl), hfind _ (by intro l; rfl), hfind _ (by intro l; rfl)]
  simp [HeaderVals.empty]

/-- C09: opening and reading a whole file (header, END OF HEADER at column 61, at least two epochs in increasing order
within 99999 s, and events that do not change the header values) succeeds and delivers exactly the written records, all with the header position. -/
theorem C09_file (v : Nat) (before tls after : List Str) (hs1 hs2 : List HLine) (endl : Str) (ts : List Str) (items : List Item)
    (ls : List Str)
    -- the header
    (h1 : HeaderText v before hs1) (h2 : HeaderText v after hs2) (hok1 : ∀ h ∈ hs1 ++ hs2, h.Ok)
    (hpre : ∀ x ∈ before, contains (c% "# / TYPES OF OBSERV") x = false) (htl : TypeText tls ts)
    (ht : ∀ t ∈ ts, t.length = 2) (hcnt : ts.length < 1000000) (hnd : ts.Nodup)
    (hno : ∀ l ∈ before ++ tls ++ after, contains lblEnd l = false) (hend : labelOf endl = lblEnd)
    -- the body
    (hbody : BodyOk ts.length items) (hsat : ∀ e ∈ epochsOf items, e.sats ≠ []) (htwo : 2 ≤ (epochsOf items).length)
    (hinc : (epochsOf items).Pairwise fun a b => instant a.time < instant b.time)
    (hspan : ∀ a ∈ epochsOf items, ∀ b ∈ epochsOf items, instant b.time - instant a.time < 99999000000)
    (hw : Written ls (bodyLines items)) :
    ∃ o, openObs2 v (before ++ tls ++ after ++ endl :: ls) = .ok o ∧
      o.records.yields.map (fun y => triple y.1) = ((epochsOf items).map (Epoch.records ts)).flatten ∧
      (∀ y ∈ o.records.yields, y.2.hdr.xyz = ((hs1 ++ hs2).findSome? HLine.saysPosition).getD [.fin 0, .fin 0, .fin 0]) ∧
      ∃ s, o.records.stop = .ok s := by
  have hph := header2_parsed v before tls after hs1 hs2 ts htl h1 h2 hok1 ht hcnt
  obtain ⟨o, i, ho, _, _, hhdr, hy, hyh, hst⟩ := open_read _ ls endl ts _ items _ rfl hno hend
    (obsTypes_render before after tls ts htl hpre ht hcnt) hnd hph hbody hsat htwo hinc hspan hw
  refine ⟨o, ho, ?_, ?_, hst⟩
  · rw [show (fun y : Rec2 × St2 => triple y.1) = triple ∘ (fun y => y.1) from rfl, ← List.map_map, hy, List.map_flatten,
      List.map_map]
    congr 1
    apply List.map_congr_left
    intro e _
    exact triple_recsOf ts e
  · intro y hy'
    rw [hyh y hy', hhdr]

/-! ## C12: positions inside a file -/

/-- the three numbers in columns 1-14, 15-28, 29-42 -/
def xyzOf (l : Str) : Option (List PyFloat) :=
  match parseFloat (slice l 0 14), parseFloat (slice l 14 28), parseFloat (slice l 28 42) with
  | some a, some b, some c => some [a, b, c]
  | _, _, _ => none

/-- the position an event announces: header information (flags 3 and 4) with a position line; the first one counts -/
def announced (e : Event) : Option (List PyFloat) :=
  if e.flag = 3 ∨ e.flag = 4 then (e.body.find? fun l => labelOf l = lbl3).bind xyzOf else none

/-- the records of a body, each with the position in force at its place -/
def withPositions (ts : List Str) : Option DateTime → List PyFloat → List Item →
    List ((DateTime × Str × List (Str × (Option PyFloat × Nat × Nat))) × List PyFloat)
  | _, _, [] => []
  | prev, p, .obs e :: r =>
    (if prev = some e.time then [] else (e.records ts).map (·, p)) ++ withPositions ts (some e.time) p r
  | prev, p, .event e :: r => withPositions ts prev ((announced e).getD p) r

/-- the position after a body -/
def finalPosition : List PyFloat → List Item → List PyFloat
  | p, [] => p
  | p, .obs _ :: r => finalPosition p r
  | p, .event e :: r => finalPosition ((announced e).getD p) r

/-- the time of the last epoch of a body -/
def lastTime : Option DateTime → List Item → Option DateTime
  | t, [] => t
  | _, .obs e :: r => lastTime (some e.time) r
  | t, .event _ :: r => lastTime t r

theorem labelOf_rstrip (l : Str) : labelOf (rstrip l) = labelOf l := by
  obtain ⟨t, ht, hsp⟩ := rstrip_decomp l
  unfold labelOf
  conv => rhs; rw [ht]
  rw [List.drop_append]
  exact (rstrip_append_space _ _ fun c hc => hsp c (List.mem_of_mem_drop hc)).symm

theorem parseXyz_xyzOf {l : Str} {p : List PyFloat} (h : parseXyz (rstrip l) = .ok p) : xyzOf l = some p := by
  have hs : ∀ i, parseFloat (slice (rstrip l) i (i + 14)) = parseFloat (slice l i (i + 14)) := by
    intro i
    obtain ⟨t, ht, hsp⟩ := slice_rstrip l i (i + 14)
    rw [ht, parseFloat_append_space _ _ fun c hc => (hsp c hc).1]
  unfold parseXyz at h
  rw [show pyRange 0 42 14 = [0, 14, 28] by decide] at h
  simp only [List.map_cons, List.map_nil, mapFloat, pyFloat, hs] at h
  unfold xyzOf
  simp only [Nat.zero_add] at h
  cases h0 : parseFloat (slice l 0 14) with
  | none => rw [h0] at h; simp [bind, Except.bind] at h
  | some a =>
    cases h1 : parseFloat (slice l 14 28) with
    | none => rw [h0, h1] at h; simp [bind, Except.bind] at h
    | some b =>
      cases h2 : parseFloat (slice l 28 42) with
      | none => rw [h0, h1, h2] at h; simp [bind, Except.bind] at h
      | some c =>
        rw [h0, h1, h2] at h
        simpa [bind, Except.bind, pure, Except.pure] using h

theorem header_event_position {v : Nat} {e : Event} {h h' : HeaderVals} (hf : e.flag = 3 ∨ e.flag = 4)
    (hp : parseHeader v (e.body.map rstrip) h = .ok h') : h'.xyz = (announced e).getD h.xyz := by
  have hx := parseHeader_xyz hp
  have hfl : firstLine lblXyz (e.body.map rstrip) = (e.body.find? fun l => labelOf l = lbl3).map rstrip := by
    unfold firstLine
    rw [List.find?_map]
    congr 2
    funext l
    simp only [Function.comp_apply]
    have := labelOf_rstrip l
    rw [show labelOf = headerLabel from rfl] at this
    rw [this]; rfl
  unfold announced
  rw [if_pos hf]
  cases hb : e.body.find? (fun l => labelOf l = lbl3) with
  | none =>
    rw [hb] at hfl
    simpa using hx.1 hfl
  | some l =>
    rw [hb] at hfl
    have := hx.2 _ hfl
    simp [parseXyz_xyzOf this]

theorem deliver_positions (c : Cfg2) (st : St2) (items : List Item) (st' : St2) (h : (deliver c st items).2 = .ok st') :
    (deliver c st items).1.map (fun y => (triple y.1, y.2.hdr.xyz)) =
      withPositions c.types st.preceding st.hdr.xyz items ∧
    st'.hdr.xyz = finalPosition st.hdr.xyz items ∧ st'.preceding = lastTime st.preceding items := by
  induction items generalizing st with
  | nil =>
    simp only [deliver, Except.ok.injEq] at h
    subst h
    exact ⟨rfl, rfl, rfl⟩
  | cons i is ih =>
    unfold deliver at h ⊢
    cases hd : deliverItem c st i with
    | mk ys r =>
      rw [hd] at h
      cases r with
      | error e => simp at h
      | ok st1 =>
        simp only at h ⊢
        obtain ⟨i1, i2, i3⟩ := ih st1 h
        rw [List.map_append, i1, i2, i3]
        cases i with
        | obs e =>
          simp only [deliverItem, Prod.mk.injEq, Except.ok.injEq] at hd
          obtain ⟨rfl, rfl⟩ := hd
          simp only [withPositions, finalPosition, lastTime, and_true]
          congr 1
          by_cases hp : st.preceding = some e.time
          · simp [hp]
          · simp only [hp, if_false, List.map_map]
            rw [← triple_recsOf, List.map_map]; rfl
        | event e =>
          simp only [withPositions, finalPosition, lastTime]
          unfold deliverItem at hd
          by_cases hf : e.flag = 3 ∨ e.flag = 4
          · simp only [hf, if_true] at hd
            cases hp : parseHeader c.version (e.body.map rstrip) st.hdr with
            | error x => rw [hp] at hd; simp at hd
            | ok h' =>
              rw [hp] at hd
              simp only [Prod.mk.injEq, Except.ok.injEq] at hd
              obtain ⟨rfl, rfl⟩ := hd
              simp only [header_event_position hf hp, List.map_nil, List.nil_append, and_self]
          · simp only [hf, if_false, Prod.mk.injEq, Except.ok.injEq] at hd
            obtain ⟨rfl, rfl⟩ := hd
            have : announced e = none := by unfold announced; rw [if_neg hf]
            simp [this]

/-- C12, what holds: a reading that starts with position `st.hdr.xyz` accompanies every record with the position in force
at its place in the file. -/
theorem C12_positions (v : Nat) (ts : List Str) (hn : ts.Nodup) (st : St2) (items : List Item)
    (hok : ∀ i ∈ items, i.Ok ts.length) (ls : List Str) (hw : Written ls (bodyLines items)) (st' : St2)
    (hstop : (readRecords2 (reader v ts) st ls).stop = .ok st') :
    (readRecords2 (reader v ts) st ls).yields.map (fun y => (triple y.1, y.2.hdr.xyz)) =
      withPositions ts st.preceding st.hdr.xyz items ∧
    st'.hdr.xyz = finalPosition st.hdr.xyz items ∧ st'.preceding = lastTime st.preceding items := by
  have hb := readRecords2_body (reader_ok v hn) st items hok ls [] hw
  rw [List.append_nil] at hb
  cases hd : deliver (reader v ts) st items with
  | mk Y r =>
    rw [hd] at hb
    cases r with
    | error e => rw [hb] at hstop; simp at hstop
    | ok s =>
      have h2 := deliver_positions (reader v ts) st items s (by rw [hd])
      rw [hd] at h2
      rw [hb] at hstop ⊢
      have e : s = st' := by simpa [readRecords2, readLoop] using hstop
      subst e
      simpa [readRecords2, readLoop, reader] using h2

/-- times of the delivered records -/
def recTimes (ts : List Str) (items : List Item) : List DateTime := (delivered ts none items).map (·.1)

/-- what `openObs2` leaves behind, for a file of well-formed items -/
theorem open_state {v : Nat} {hdr ls : List Str} {endl : Str} {ts : List Str} {h0 : HeaderVals} {o : Obs2}
    (hh : ∀ l ∈ hdr, contains lblEnd l = false) (hend : labelOf endl = lblEnd) (hts : obsTypes hdr = .ok ts)
    (hph : parseHeader v hdr .empty = .ok h0) (ho : openObs2 v (hdr ++ endl :: ls) = .ok o) :
    ∃ i st w, getInterval 10 ⟨h0, none⟩ (readRecords2 (reader v ts) ⟨h0, none⟩ ls) = .ok (i, st) ∧
      parseInterval v (padLeft 10 (fmtFixed3 ((i : Rat) / 1000000))) = .ok w ∧
      o = ⟨reader v ts, { st with hdr := { st.hdr with interval := some w } }, ls⟩ := by
  unfold openObs2 at ho
  rw [splitHeader2_spec hdr ls endl hh (headerLabel_contains hend)] at ho
  simp only [hts, ok_bind, hph] at ho
  rw [show (⟨v, ts, linesPerRec ts.length⟩ : Cfg2) = reader v ts from rfl] at ho
  obtain ⟨⟨i, st⟩, h1, ho⟩ := bind_eq_ok.1 ho
  obtain ⟨w, h2, ho⟩ := bind_eq_ok.1 ho
  rw [pure_eq_ok, afterHeader_spec hdr ls endl (fun l hl h => by
      have := headerLabel_contains h; rw [hh l hl] at this; simp at this) hend] at ho
  exact ⟨i, st, w, h1, h2, ho.symm⟩

/-- C12, what fails, in general: for every file of well-formed items with fewer than ten spacings, the opened reader starts
with the position in force at the *end* of the file and the memory of the *last* epoch; so every record before the first
announced position is accompanied by the last one, and an initial epoch with the time of the last one is lost. -/
theorem C12_open_starts_at_the_end (v : Nat) (hdr ls : List Str) (endl : Str) (ts : List Str) (hn : ts.Nodup)
    (h0 : HeaderVals) (items : List Item) (o : Obs2)
    (hh : ∀ l ∈ hdr, contains lblEnd l = false) (hend : labelOf endl = lblEnd) (hts : obsTypes hdr = .ok ts)
    (hph : parseHeader v hdr .empty = .ok h0) (hok : ∀ i ∈ items, i.Ok ts.length) (hw : Written ls (bodyLines items))
    (hfew : (spacings (recTimes ts items)).length < 10) (ho : openObs2 v (hdr ++ endl :: ls) = .ok o) (s : St2)
    (hstop : o.records.stop = .ok s) :
    o.records.yields.map (fun y => (triple y.1, y.2.hdr.xyz)) =
      withPositions ts (lastTime none items) (finalPosition h0.xyz items) items := by
  obtain ⟨i, st, w, h1, h2, rfl⟩ := open_state hh hend hts hph ho
  cases hs1 : (readRecords2 (reader v ts) ⟨h0, none⟩ ls).stop with
  | error e =>
    have hleg := readRecords2_legal (reader v ts) ls.length ⟨h0, none⟩ ls (Nat.le_refl _)
    obtain ⟨g1, g2⟩ := getInterval_spec (n := 10) (by omega) ⟨h0, none⟩ (readRecords2 (reader v ts) ⟨h0, none⟩ ls) hleg
    -- an error in the first reading is an error in the second one as well, unless it is not reached
    have hb1 := readRecords2_body (reader_ok v hn) ⟨h0, none⟩ items hok ls [] hw
    rw [List.append_nil] at hb1
    -- the delivered prefix has at most the spacings of the whole
    by_cases hlen : (spacings ((readRecords2 (reader v ts) ⟨h0, none⟩ ls).yields.map (·.1.epoch))).length < 10
    · rw [(g2 hlen).1 e hs1] at h1; simp at h1
    · exfalso
      apply hlen
      have hpre : ∀ (its : List Item) (st : St2), ((deliver (reader v ts) st its).1.map (fun y => triple y.1)) <+:
          delivered ts st.preceding its := by
        intro its
        induction its with
        | nil => intro st; exact List.prefix_refl _
        | cons i is ih =>
          intro st
          unfold deliver
          cases i with
          | obs e =>
            simp only [deliverItem, delivered, List.map_append]
            have : List.map (fun y => triple y.1) (if st.preceding = some e.time then [] else
                (recsOf (reader v ts).types e).map (·, st)) = if st.preceding = some e.time then [] else e.records ts := by
              split
              · rfl
              · rw [List.map_map, ← triple_recsOf]; rfl
            rw [this]
            exact List.prefix_append_right_inj _ |>.2 (ih _)
          | event e =>
            simp only [deliverItem, delivered]
            by_cases hf : e.flag = 3 ∨ e.flag = 4
            · simp only [hf, if_true]
              cases parseHeader (reader v ts).version (e.body.map rstrip) st.hdr with
              | error x => exact List.nil_prefix
              | ok h' => simpa using ih { st with hdr := h' }
            · simp only [hf, if_false]
              simpa using ih st
      have hY : (readRecords2 (reader v ts) ⟨h0, none⟩ ls).yields.map (fun y => triple y.1) <+: delivered ts none items := by
        have := hpre items ⟨h0, none⟩
        cases hd : deliver (reader v ts) ⟨h0, none⟩ items with
        | mk Y r =>
          rw [hd] at this hb1
          cases r with
          | error e => rw [hb1]; exact this
          | ok s => rw [hb1]; simpa [readRecords2, readLoop] using this
      obtain ⟨suf, hsuf⟩ := hY
      have hlegY : ∀ t ∈ (readRecords2 (reader v ts) ⟨h0, none⟩ ls).yields.map (·.1.epoch), Legal t := by
        intro t ht; obtain ⟨y, hy, rfl⟩ := List.mem_map.1 ht; exact hleg y hy
      have hlegD : ∀ (its : List Item) prev, (∀ i ∈ its, i.Ok ts.length) → ∀ r ∈ delivered ts prev its, Legal r.1 := by
        intro its
        induction its with
        | nil => intro prev _ r hr; simp [delivered] at hr
        | cons i is ih =>
          intro prev hk r hr
          cases i with
          | obs e =>
            simp only [delivered, List.mem_append] at hr
            rcases hr with hr | hr
            · split at hr
              · simp at hr
              · simp only [Epoch.records, List.mem_map] at hr
                obtain ⟨s, _, rfl⟩ := hr
                exact (hk (.obs e) (by simp)).1
            · exact ih _ (fun i hi => hk i (by simp [hi])) r hr
          | event e => exact ih _ (fun i hi => hk i (by simp [hi])) r hr
      have hmap : recTimes ts items = (readRecords2 (reader v ts) ⟨h0, none⟩ ls).yields.map (·.1.epoch) ++ suf.map (·.1) := by
        unfold recTimes
        rw [← hsuf, List.map_append, List.map_map]
        rfl
      have hp := subs_prefix (l := (readRecords2 (reader v ts) ⟨h0, none⟩ ls).yields.map (·.1.epoch)) (m := suf.map (·.1))
      rw [← hmap, subs_eq_spacings hlegY, subs_eq_spacings (by
        intro t ht
        obtain ⟨r, hr, rfl⟩ := List.mem_map.1 ht
        exact hlegD items none hok r hr)] at hp
      exact lt_of_le_of_lt hp.length_le hfew
  | ok s1 =>
    obtain ⟨p1, p2, p3⟩ := C12_positions v ts hn ⟨h0, none⟩ items hok ls hw s1 hs1
    have htimes : (readRecords2 (reader v ts) ⟨h0, none⟩ ls).yields.map (·.1.epoch) = recTimes ts items := by
      have := C11_header_events v ts hn ⟨h0, none⟩ items hok ls hw s1 hs1
      unfold recTimes
      rw [← this, List.map_map]; rfl
    have hleg := readRecords2_legal (reader v ts) ls.length ⟨h0, none⟩ ls (Nat.le_refl _)
    obtain ⟨g1, g2⟩ := getInterval_spec (n := 10) (by omega) ⟨h0, none⟩ (readRecords2 (reader v ts) ⟨h0, none⟩ ls) hleg
    rw [htimes] at g2
    obtain ⟨_, g3, g4⟩ := g2 hfew
    have hst : st = s1 := by
      by_cases hS : spacings (recTimes ts items) = []
      · rw [g3 s1 hs1 hS] at h1; simp at h1
      · obtain ⟨i', _, h'⟩ := g4 s1 hs1 hS
        rw [h'] at h1
        simp only [Except.ok.injEq, Prod.mk.injEq] at h1
        exact h1.2.symm
    subst hst
    have := (C12_positions v ts hn { st with hdr := { st.hdr with interval := some w } } items hok ls hw s hstop).1
    unfold Obs2.records
    simp only at this ⊢
    rw [this, p2, p3]

/-- C12, a small witness file: position (1,2,3) announced between two epochs accompanies already the first one, although the
header says (0,0,0); and of three epochs 0 s, 30 s, 0 s the first is lost. -/
def witnessFile (items : List Item) : List Str :=
  [HLine.render 211 (.version 211 'O' 'G'), HLine.render 211 (.position 0 0 0)] ++ typeLines exTypes ++
    [hline [] lblEnd] ++ bodyLines items

theorem C12_witness_position :
    ∃ o, openObs2 211 (witnessFile [.obs (exEpoch 0), .event (exEvent 10000), .obs (exEpoch 30)]) = .ok o ∧
      (o.records.yields.map fun y => (y.1.epoch.second, y.2.hdr.xyz)) =
        [(0, [.fin 1, .fin 2, .fin 3]), (0, [.fin 1, .fin 2, .fin 3]),
         (30, [.fin 1, .fin 2, .fin 3]), (30, [.fin 1, .fin 2, .fin 3])] := by
  refine ⟨⟨reader 211 exTypes, ⟨⟨some (.fin (211 / 100), 'O', 'G'), none, [.fin 1, .fin 2, .fin 3], some (.fin 30)⟩,
    some (exEpoch 30).time⟩, bodyLines [.obs (exEpoch 0), .event (exEvent 10000), .obs (exEpoch 30)]⟩, ?_, ?_⟩
  · have h : ∀ a b : Except PyErr Obs2, a.map (fun o => (o.cfg, o.st, o.rest)) = b.map (fun o => (o.cfg, o.st, o.rest)) → a = b := by
      intro a b hab
      cases a <;> cases b <;> simp only [Except.map, reduceCtorEq, Except.ok.injEq, Except.error.injEq, Prod.mk.injEq] at hab ⊢
      · exact hab
      · rename_i x y; cases x; cases y; simp_all
    apply h
    decide +kernel
  · decide +kernel

theorem C12_witness_lost_epoch :
    (openObs2 211 (witnessFile [.obs (exEpoch 0), .obs (exEpoch 30), .obs (exEpoch 0)])).map
      (fun o => o.records.yields.map fun y => y.1.epoch.second) = .ok [30, 30, 0, 0] := by
  decide +kernel

/-! ## C13: errors -/

/-- C13: appending anything to a file never changes the records already delivered. -/
theorem C13_prefix (c : Cfg2) (st : St2) (ls more : List Str) :
    (readRecords2 c st ls).yields <+: (readRecords2 c st (ls ++ more)).yields :=
  readLoop_append c ls.length st ls more (Nat.le_refl _)

/-- C13: after well-formed items (without header events), whatever follows (including faulty text), the records of the
items are delivered first, followed by whatever the rest delivers in the state the items leave. -/
theorem C13_before_fault (v : Nat) (ts : List Str) (hn : ts.Nodup) (st : St2) (items : List Item)
    (hok : ∀ i ∈ items, i.Ok ts.length) (hev : ∀ e, Item.event e ∈ items → e.Quiet)
    (ls rest : List Str) (hw : Written ls (bodyLines items)) :
    ∃ good st', (readRecords2 (reader v ts) st (ls ++ rest)).yields = good ++ (readRecords2 (reader v ts) st' rest).yields ∧
      good.map (fun y => triple y.1) = delivered ts st.preceding items ∧
      st'.hdr = st.hdr ∧ st'.preceding = lastTime st.preceding items ∧
      (readRecords2 (reader v ts) st (ls ++ rest)).stop = (readRecords2 (reader v ts) st' rest).stop := by
  have hb := readRecords2_body (reader_ok v hn) st items hok ls rest hw
  obtain ⟨st', h1, h1h⟩ := deliver_no_header_events (reader v ts) st items hev
  have h2 := deliver_delivered _ _ _ _ h1
  have h3 := (deliver_positions _ _ _ _ h1).2.2
  cases hd : deliver (reader v ts) st items with
  | mk Y r =>
    rw [hd] at h1 h2 hb
    simp only at h1
    subst h1
    rw [hb]
    exact ⟨Y, st', rfl, h2, h1h, h3, rfl⟩

/-- C13: a faulty epoch block delivers only records of its own epoch (those of its satellites before the fault). -/
theorem C13_faulty_block (c : Cfg2) (st : St2) (l : Str) (ls : List Str) (ys : List (Rec2 × St2)) (e : PyErr)
    (h : readBlock c st l ls = (ys, .error e)) :
    (readRecords2 c st (l :: ls)).yields = ys ∧ (readRecords2 c st (l :: ls)).stop = .error e ∧
    ∃ t, ∀ y ∈ ys, y.1.epoch = t ∧ y.2 = st := by
  refine ⟨?_, ?_, ?_⟩
  · rw [readRecords2_cons, h]
  · rw [readRecords2_cons, h]
  · unfold readBlock at h
    cases hr : readEpoch (rstrip l) ls with
    | error x => rw [hr] at h; simp only [Prod.mk.injEq] at h; obtain ⟨rfl, _⟩ := h; exact ⟨⟨0,0,0,0,0,0,0⟩, by simp⟩
    | ok p =>
      obtain ⟨ep, ls'⟩ := p
      rw [hr] at h
      simp only at h
      have dummy : ys = [] → ∃ t : DateTime, ∀ y ∈ ys, y.1.epoch = t ∧ y.2 = st := by
        rintro rfl; exact ⟨⟨0,0,0,0,0,0,0⟩, by simp⟩
      split at h
      · split at h
        · simp only [Prod.mk.injEq] at h; exact dummy h.1.symm
        · split at h <;> simp only [Prod.mk.injEq] at h <;> exact dummy h.1.symm
      · split at h
        · split at h <;> simp only [Prod.mk.injEq] at h <;> exact dummy h.1.symm
        · split at h
          · simp only [Prod.mk.injEq] at h; exact dummy h.1.symm
          · rename_i t _
            have hall := readSats_epoch (c := c) (st := st) (t := t) (prns := ep.prns) (ls := ls')
            split at h
            · rename_i ys' e' hs
              simp only [Prod.mk.injEq] at h
              rw [hs] at hall
              obtain ⟨rfl, _⟩ := h
              exact ⟨t, hall⟩
            · simp at h

/-- C13: an error other than RinexError needs a line announcing a header event (flag 3 or 4) or seconds that are infinite
or beyond 2^31. -/
theorem C13_only_rinex (v : Nat) (ts : List Str) (st : St2) (ls : List Str) (e : PyErr)
    (h : (readRecords2 (reader v ts) st ls).stop = .error e)
    (hflag : ∀ l ∈ ls, parseInt (slice (rstrip l) 26 29) ≠ some 3 ∧ parseInt (slice (rstrip l) 26 29) ≠ some 4)
    (hsec : ∀ l ∈ ls, ∀ q, parseFloat (slice (rstrip l) 15 26) = some q → ∃ r, q = .nan ∨ (q = .fin r ∧ -2147483648 < r ∧ r < 2147483648)) :
    e = .rinex := by
  rcases readRecords2_error (c := reader v ts) rfl ls.length st ls (Nat.le_refl _) h with h | ⟨l, hl, hs⟩
  · exact h
  · exfalso
    unfold Suspicious at hs
    rcases hs with ⟨f, hf, rfl | rfl⟩ | ⟨q, hq, hh⟩
    · exact (hflag l hl).1 hf
    · exact (hflag l hl).2 hf
    · obtain ⟨r, hr | ⟨hr, h1, h2⟩⟩ := hsec l hl q hq
      · subst hr; exact hh
      · subst hr
        rcases hh with hh | hh
        · exact absurd hh (not_le.2 h1)
        · exact absurd hh (not_le.2 h2)

/-- C13 witness: infinite seconds escape as OverflowError; a broken position line in an event as ValueError. -/
theorem C13_witness :
    (readRecords2 (reader 211 exTypes) ⟨.empty, none⟩ [c% " 17  1  2  3  4  inf        0  1G01"]).stop = .error .overflow ∧
    (readRecords2 (reader 211 exTypes) ⟨.empty, none⟩ [List.replicate 28 ' ' ++ c% "4  1", hline (c% "x") lbl3]).stop =
      .error .value := by decide +kernel

/-- a truncated second epoch: the first one is delivered, then RinexError -/
example : (readRecords2 (reader 211 exTypes) ⟨.empty, none⟩ ((bodyLines [.obs (exEpoch 0), .obs (exEpoch 30)]).take 5)).yields.map
      (fun y => (y.1.epoch.second, y.1.sat)) = [(0, c% "G01"), (0, c% "R24"), (30, c% "G01")] ∧
    (readRecords2 (reader 211 exTypes) ⟨.empty, none⟩ ((bodyLines [.obs (exEpoch 0), .obs (exEpoch 30)]).take 5)).stop =
      .error .rinex := by decide +kernel

/-! ## C14, C15: the sampling interval -/

theorem stored_of_parse {v : Nat} {i : Int} {w : PyFloat} (hb : -99999000000 < i ∧ i < 99999000000) (hv : v = 200 → 0 ≤ i)
    (h : parseInterval v (padLeft 10 (fmtFixed3 ((i : Rat) / 1000000))) = .ok w) : Stored v i w := by
  have hq : (i : Rat) / 1000000 * 1000 = (i : Rat) / 1000 := by ring
  obtain ⟨b1, b2⟩ := roundHalfEven_bounds ((i : Rat) / 1000000 * 1000)
  rw [hq] at b1 b2
  have hsmall : (roundHalfEven ((i : Rat) / 1000000 * 1000)).natAbs < 100000000 := by
    have a1 : (-99999000000 : Rat) < (i : Rat) := by exact_mod_cast hb.1
    have a2 : (i : Rat) < 99999000000 := by exact_mod_cast hb.2
    have c1 : -99999000 ≤ roundHalfEven ((i : Rat) / 1000000 * 1000) := roundHalfEven_mono_int (by push_cast; linarith)
    have c2 : roundHalfEven ((i : Rat) / 1000000 * 1000) ≤ 99999000 := roundHalfEven_le_int (by push_cast; linarith)
    omega
  refine ⟨roundHalfEven ((i : Rat) / 1000000 * 1000), ?_, ?_, ?_⟩
  · rw [hq]
    have : (2 : Rat) * ((i : Rat) - 1000 * (roundHalfEven ((i : Rat) / 1000) : Rat)) ≤ 1000 := by linarith
    exact_mod_cast this
  · rw [hq]
    have : (-1000 : Rat) ≤ 2 * ((i : Rat) - 1000 * (roundHalfEven ((i : Rat) / 1000) : Rat)) := by linarith
    exact_mod_cast this
  · by_cases hv2 : v = 200
    · subst hv2
      have h0 : (0 : Rat) ≤ (i : Rat) / 1000000 := by
        have : (0 : Rat) ≤ (i : Rat) := by exact_mod_cast hv rfl
        positivity
      rw [parseInterval_200 h0 hsmall, Except.ok.injEq] at h
      rw [← h]; simp
    · rw [parseInterval_later hv2 hsmall, Except.ok.injEq] at h
      rw [← h]; simp [hv2]

/-- C14 and C15: the interval of an opened file is the most frequent of the first ten spacings of consecutive different
record times (the earliest seen one among equally frequent ones), stored as C15 says. -/
theorem C14_interval (v : Nat) (hdr ls : List Str) (endl : Str) (ts : List Str) (hn : ts.Nodup)
    (h0 : HeaderVals) (items : List Item) (o : Obs2)
    (hh : ∀ l ∈ hdr, contains lblEnd l = false) (hend : labelOf endl = lblEnd) (hts : obsTypes hdr = .ok ts)
    (hph : parseHeader v hdr .empty = .ok h0) (hok : ∀ i ∈ items, i.Ok ts.length)
    (hev : ∀ e, Item.event e ∈ items → e.Quiet) (hw : Written ls (bodyLines items))
    (hrange : ∀ d ∈ spacings (recTimes ts items), -99999000000 < d ∧ d < 99999000000 ∧ (v = 200 → 0 ≤ d))
    (ho : openObs2 v (hdr ++ endl :: ls) = .ok o) :
    ∃ i w, MostFrequent i ((spacings (recTimes ts items)).take 10) ∧ o.st.hdr.interval = some w ∧ Stored v i w := by
  obtain ⟨i, st, w, h1, h2, rfl⟩ := open_state hh hend hts hph ho
  obtain ⟨hc, s1, hs1, _⟩ := C11_events v ts hn ⟨h0, none⟩ items hok hev ls hw
  have htimes : (readRecords2 (reader v ts) ⟨h0, none⟩ ls).yields.map (·.1.epoch) = recTimes ts items := by
    unfold recTimes
    rw [← hc, List.map_map]; rfl
  have hleg := readRecords2_legal (reader v ts) ls.length ⟨h0, none⟩ ls (Nat.le_refl _)
  obtain ⟨g1, g2⟩ := getInterval_spec (n := 10) (by omega) ⟨h0, none⟩ (readRecords2 (reader v ts) ⟨h0, none⟩ ls) hleg
  rw [htimes] at g1 g2
  have key : MostFrequent i ((spacings (recTimes ts items)).take 10) := by
    by_cases hlen : 10 ≤ (spacings (recTimes ts items)).length
    · obtain ⟨_, _, _, _, i', _, _, hm, h'⟩ := g1 hlen
      rw [h', Except.ok.injEq, Prod.mk.injEq] at h1
      rw [← h1.1]; exact hm
    · obtain ⟨_, g3, g4⟩ := g2 (by omega)
      rw [List.take_of_length_le (by omega)]
      by_cases hS : spacings (recTimes ts items) = []
      · rw [g3 s1 hs1 hS] at h1; simp at h1
      · obtain ⟨i', hm, h'⟩ := g4 s1 hs1 hS
        rw [h', Except.ok.injEq, Prod.mk.injEq] at h1
        rw [← h1.1]; exact hm
  obtain ⟨r1, r2, r3⟩ := hrange i (List.mem_of_mem_take key.1)
  exact ⟨i, w, key, rfl, stored_of_parse ⟨r1, r2⟩ r3 h2⟩

/-- C14: a file whose records do not show two different times is refused with RinexError. -/
theorem C14_too_short (v : Nat) (hdr ls : List Str) (endl : Str) (ts : List Str) (hn : ts.Nodup)
    (h0 : HeaderVals) (items : List Item)
    (hh : ∀ l ∈ hdr, contains lblEnd l = false) (hend : labelOf endl = lblEnd) (hts : obsTypes hdr = .ok ts)
    (hph : parseHeader v hdr .empty = .ok h0) (hok : ∀ i ∈ items, i.Ok ts.length)
    (hev : ∀ e, Item.event e ∈ items → e.Quiet) (hw : Written ls (bodyLines items))
    (hS : spacings (recTimes ts items) = []) :
    openObs2 v (hdr ++ endl :: ls) = .error .rinex := by
  obtain ⟨hc, s1, hs1, _⟩ := C11_events v ts hn ⟨h0, none⟩ items hok hev ls hw
  have htimes : (readRecords2 (reader v ts) ⟨h0, none⟩ ls).yields.map (·.1.epoch) = recTimes ts items := by
    unfold recTimes
    rw [← hc, List.map_map]; rfl
  have hleg := readRecords2_legal (reader v ts) ls.length ⟨h0, none⟩ ls (Nat.le_refl _)
  obtain ⟨_, g2⟩ := getInterval_spec (n := 10) (by omega) ⟨h0, none⟩ (readRecords2 (reader v ts) ⟨h0, none⟩ ls) hleg
  rw [htimes] at g2
  have := (g2 (by rw [hS]; simp)).2.1 s1 hs1 hS
  unfold openObs2
  rw [splitHeader2_spec hdr ls endl hh (headerLabel_contains hend)]
  simp only [hts, ok_bind, hph]
  rw [show (⟨v, ts, linesPerRec ts.length⟩ : Cfg2) = reader v ts from rfl, this]
  rfl

/-- C15: for version 2.0 a spacing below 999.5 ms is stored as 0. -/
theorem C15_zero (i : Int) (w : PyFloat) (h0 : 0 ≤ i) (h1 : i < 999500) (hs : Stored 200 i w) : w = .fin 0 := by
  obtain ⟨ms, a, b, rfl⟩ := hs
  have : ms / 1000 = 0 := by omega
  simp [this]

/-- C15: a spacing of whole milliseconds is stored exactly from version 2.10 on, and truncated to whole seconds before. -/
theorem C15_milliseconds (v : Nat) (n : Int) (w : PyFloat) (hs : Stored v (1000 * n) w) :
    w = .fin (if v = 200 then ((n / 1000 : Int) : Rat) else (n : Rat) / 1000) := by
  obtain ⟨ms, a, b, rfl⟩ := hs
  have : ms = n := by omega
  rw [this]

/-- 0 s, 30 s, 30.5 s ...: an interval of 30 s; version 2.0 with half-second epochs stores 0 -/
def halfEpoch (s us : Nat) : Epoch := ⟨⟨2017, 1, 2, 3, 4, s, us⟩, 0, 0, [exSat 'G' 1 123456], [], (true, true)⟩
example : spacings (recTimes exTypes [.obs (exEpoch 0), .obs (exEpoch 10), .obs (exEpoch 40), .obs (exEpoch 50)]) =
    [10000000, 30000000, 10000000] := by decide +kernel
example : MostFrequent 10000000 [10000000, 30000000, 10000000] := by unfold MostFrequent; decide
theorem C15_witness_zero :
    (openObs2 200 ([HLine.render 200 (.version 200 'O' 'G')] ++ typeLines exTypes ++ [hline [] lblEnd] ++
      bodyLines [.obs (halfEpoch 0 0), .obs (halfEpoch 0 500000), .obs (halfEpoch 1 0)])).map (·.st.hdr.interval) =
      .ok (some (.fin 0)) := by decide +kernel
example : (openObs2 211 (witnessFile [.obs (exEpoch 0), .obs (exEpoch 10), .obs (exEpoch 40), .obs (exEpoch 50)])).map
    (·.st.hdr.interval) = .ok (some (.fin 10)) := by decide +kernel

/-! ## C16: where reading starts -/

/-- C16: the reader is positioned on the line after the first line labelled END OF HEADER at column 61. -/
theorem C16_after_header (v : Nat) (hdr body : List Str) (endl : Str) (o : Obs2) (hh : ∀ l ∈ hdr, labelOf l ≠ lblEnd)
    (hend : labelOf endl = lblEnd) (ho : openObs2 v (hdr ++ endl :: body) = .ok o) : o.rest = body := by
  unfold openObs2 at ho
  simp only at ho
  obtain ⟨ts, h1, ho⟩ := bind_eq_ok.1 ho
  obtain ⟨hv, h2, ho⟩ := bind_eq_ok.1 ho
  obtain ⟨⟨dt, st⟩, h3, ho⟩ := bind_eq_ok.1 ho
  obtain ⟨w, h4, ho⟩ := bind_eq_ok.1 ho
  rw [pure_eq_ok] at ho
  rw [← ho]
  exact afterHeader_spec hdr body endl hh hend

/-- C16: when no line carries that label at column 61, an opened file delivers no record and no error. -/
theorem C16_misplaced (v : Nat) (file : List Str) (o : Obs2) (hh : ∀ l ∈ file, labelOf l ≠ lblEnd)
    (ho : openObs2 v file = .ok o) : o.records.yields = [] ∧ o.records.stop = .ok o.st := by
  unfold openObs2 at ho
  simp only at ho
  obtain ⟨ts, h1, ho⟩ := bind_eq_ok.1 ho
  obtain ⟨hv, h2, ho⟩ := bind_eq_ok.1 ho
  obtain ⟨⟨dt, st⟩, h3, ho⟩ := bind_eq_ok.1 ho
  obtain ⟨w, h4, ho⟩ := bind_eq_ok.1 ho
  rw [pure_eq_ok] at ho
  have : o.rest = [] := by rw [← ho]; exact afterHeader_none file hh
  unfold Obs2.records
  rw [this]
  exact ⟨rfl, rfl⟩

/-- such files do open: END OF HEADER one column too far to the right -/
theorem C16_witness : ∃ o, openObs2 211 ([HLine.render 211 (.version 211 'O' 'G')] ++ typeLines exTypes ++
      [List.replicate 61 ' ' ++ lblEnd] ++ bodyLines [.obs (exEpoch 0), .obs (exEpoch 30)]) = .ok o ∧ o.records.yields = [] := by
  have h : (openObs2 211 ([HLine.render 211 (.version 211 'O' 'G')] ++ typeLines exTypes ++
      [List.replicate 61 ' ' ++ lblEnd] ++ bodyLines [.obs (exEpoch 0), .obs (exEpoch 30)])).map
      (fun o => o.records.yields.length) = .ok 0 := by decide +kernel
  cases ho : openObs2 211 ([HLine.render 211 (.version 211 'O' 'G')] ++ typeLines exTypes ++
      [List.replicate 61 ' ' ++ lblEnd] ++ bodyLines [.obs (exEpoch 0), .obs (exEpoch 30)]) with
  | error e => rw [ho] at h; simp [Except.map] at h
  | ok o =>
    rw [ho] at h
    simp only [Except.map, Except.ok.injEq, List.length_eq_zero_iff] at h
    exact ⟨o, rfl, h⟩

end Verif.Props
