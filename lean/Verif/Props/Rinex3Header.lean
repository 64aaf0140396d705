import Verif.Proofs.Obs3Header
/-!
# Property C17: observation types of RINEX 3 files

A header is any sequence of entries: type definitions of systems (any number of codes, thirteen per line) and other lines, in
any order.
-/
namespace Verif.Props
open Verif.Py Verif.Model Verif.Spec Verif.Proofs

/-- the types the header announces, by system -/
def typesOf (v : Nat) : List HEntry → SysMap
  | [] => []
  | .line _ :: es => typesOf v es
  | .sys s _ codes :: es => ([s], codes.map (Code.means v s)) :: typesOf v es

/-- the announced numbers are right, no system occurs twice, and none is already known -/
def Consistent (known : SysMap) (es : List HEntry) : Prop :=
  (∀ s n codes, HEntry.sys s n codes ∈ es → n = codes.length) ∧
  ((sysOf es).map fun p => [p.1]).Nodup ∧ ∀ p ∈ sysOf es, [p.1] ∉ known.keys

theorem bdsFix_codes (codes : List Code) (h : ∀ c ∈ codes, c.Ok) :
    bdsFix (codes.map Code.text) =
      .ok (codes.map fun c => if c.band = '1' then [c.kind, '2', c.attr] else c.text) := by
  induction codes with
  | nil => rfl
  | cons c cs ih =>
    obtain ⟨_, _, _, hk, ha⟩ := h c (by simp)
    have ih := ih fun x hx => h x (by simp [hx])
    simp only [List.map_cons, bdsFix, charAt, Code.text] at ih ⊢
    simp only [List.getElem?_cons_succ, List.getElem?_cons_zero, ok_bind]
    have : (List.map (fun c : Code => [c.kind, c.band, c.attr]) cs) = List.map Code.text cs := rfl
    rw [ih]
    simp only [ok_bind, pure, Except.pure]
    by_cases hb : c.band = '1'
    · simp [hb, replaceChar, hk, ha]
    · simp [hb]

theorem means_eq (v : Nat) (s : Char) (codes : List Code) (h : ∀ c ∈ codes, c.Ok) :
    (if v ≥ 302 ∧ [s] = c% "C" then bdsFix (codes.map Code.text) else .ok (codes.map Code.text)) =
      (.ok (codes.map (Code.means v s)) : Except PyErr (List Str)) := by
  rw [bdsFix_codes codes h]
  by_cases hc : v ≥ 302 ∧ [s] = c% "C"
  · rw [if_pos hc]
    obtain ⟨h1, h2⟩ := hc
    simp only [List.cons.injEq, and_true] at h2
    congr 1
    apply List.map_congr_left
    intro c _
    simp [Code.means, h1, h2]
  · rw [if_neg hc]
    congr 1
    apply List.map_congr_left
    intro c _
    simp only [Code.means]
    rw [if_neg]
    rintro ⟨a, b, _⟩
    exact hc ⟨a, by rw [b]⟩

theorem addSystems_ok (v : Nat) (es : List HEntry) (hok : ∀ e ∈ es, e.Ok) (m : SysMap) (hc : Consistent m es) :
    addSystems v ((sysOf es).map fun p => joined p.1 p.2.1 p.2.2) m = .ok (m ++ typesOf v es) := by
  induction es generalizing m with
  | nil => simp [sysOf, addSystems, typesOf]
  | cons e es ih =>
    obtain ⟨h1, h2, h3⟩ := hc
    cases e with
    | line h =>
      exact ih (fun x hx => hok x (by simp [hx])) m
        ⟨fun s n codes hm => h1 s n codes (by simp [hm]), h2, h3⟩
    | sys s n codes =>
      obtain ⟨hs, hn, hcodes⟩ := hok (.sys s n codes) (by simp)
      simp only [sysOf, List.map_cons, List.nodup_cons] at h2
      have hk : [s] ∉ m.keys := h3 (s, n, codes) (by simp [sysOf])
      have hlen := h1 s n codes (by simp)
      have hset : m.set [s] (codes.map (Code.means v s)) = m ++ [([s], codes.map (Code.means v s))] := by
        clear * - hk
        induction m with
        | nil => rfl
        | cons p m ih =>
          obtain ⟨k, w⟩ := p
          simp only [Dict.keys, List.map_cons, List.mem_cons, not_or] at hk
          simp only [Dict.set]
          rw [if_neg (fun h => hk.1 h.symm), ih hk.2]; rfl
      have hhas : m.has [s] = false := by
        rw [Dict.has, Bool.eq_false_iff]
        intro h
        exact hk ((Dict.get?_isSome_iff m [s]).1 h)
      simp only [sysOf, List.map_cons, addSystems, splitWs_joined s n codes hs hn hcodes]
      simp only [pyInt, parseInt_natStr, means_eq v s codes hcodes, List.length_map]
      rw [if_neg (by rw [hlen]; simp), hhas]
      simp only [Bool.false_eq_true, if_false]
      rw [hset, ih (fun x hx => hok x (by simp [hx]))]
      · simp [typesOf]
      · refine ⟨fun s n codes hm => h1 s n codes (by simp [hm]), h2.2, ?_⟩
        intro p hp hm
        simp only [Dict.keys, List.map_append, List.map_cons, List.map_nil, List.mem_append, List.mem_singleton] at hm
        rcases hm with hm | hm
        · exact h3 p (by simp [sysOf, hp]) hm
        · exact h2.1 (List.mem_map.2 ⟨p, hp, hm⟩)

theorem addSystems_bad (v : Nat) (es : List HEntry) (hok : ∀ e ∈ es, e.Ok) (m : SysMap) (hc : ¬ Consistent m es) :
    addSystems v ((sysOf es).map fun p => joined p.1 p.2.1 p.2.2) m = .error .assertion ∨
    addSystems v ((sysOf es).map fun p => joined p.1 p.2.1 p.2.2) m = .error .header := by
  induction es generalizing m with
  | nil => exact absurd ⟨by simp, by simp [sysOf], by simp [sysOf]⟩ hc
  | cons e es ih =>
    cases e with
    | line h =>
      refine ih (fun x hx => hok x (by simp [hx])) m ?_
      rintro ⟨h1, h2, h3⟩
      refine hc ⟨?_, h2, h3⟩
      intro s n codes hm
      rcases List.mem_cons.1 hm with hm | hm
      · exact absurd hm (by simp)
      · exact h1 s n codes hm
    | sys s n codes =>
      obtain ⟨hs, hn, hcodes⟩ := hok (.sys s n codes) (by simp)
      simp only [sysOf, List.map_cons, addSystems, splitWs_joined s n codes hs hn hcodes]
      simp only [pyInt, parseInt_natStr, means_eq v s codes hcodes, List.length_map]
      by_cases hlen : n = codes.length
      · rw [if_neg (by rw [hlen]; simp)]
        cases hhas : m.has [s] with
        | true => right; simp
        | false =>
          simp only [Bool.false_eq_true, if_false]
          refine ih (fun x hx => hok x (by simp [hx])) _ ?_
          rintro ⟨h1, h2, h3⟩
          refine hc ⟨?_, ?_, ?_⟩
          · intro s' n' codes' hm
            rcases List.mem_cons.1 hm with hm | hm
            · cases hm; exact hlen
            · exact h1 s' n' codes' hm
          · simp only [sysOf, List.map_cons, List.nodup_cons]
            refine ⟨?_, h2⟩
            intro hm
            obtain ⟨p, hp, hps⟩ := List.mem_map.1 hm
            exact h3 p hp ((Dict.mem_keys_set _ _ _ _).2 (Or.inl hps))
          · intro p hp hm
            rcases List.mem_cons.1 hp with rfl | hp
            · have := (Dict.get?_isSome_iff m [s]).2 hm
              rw [Dict.has] at hhas
              rw [hhas] at this
              exact absurd this (by simp)
            · exact h3 p hp ((Dict.mem_keys_set _ _ _ _).2 (Or.inr hm))
      · left
        rw [if_pos]
        intro h
        exact hlen (by exact_mod_cast h.symm)

theorem joinSysLines_end (acc : List Str) : joinSysLines [[]] acc = .ok acc.reverse := by simp [joinSysLines]

theorem assign_entries (v : Nat) (es : List HEntry) (hok : ∀ e ∈ es, e.Ok) (ls : List Str)
    (hp : PhysicalLines ls (es.map (HEntry.lines v)).flatten) (m : SysMap) :
    assignSysNObs v (ls.filter fun l => headerLabel l = lblSysNObs).flatten m =
      addSystems v ((sysOf es).map fun p => joined p.1 p.2.1 p.2.2) m := by
  obtain ⟨xs, h1, h2, h3⟩ := header_text_join es hok ls hp
  unfold assignSysNObs
  rw [h1, splitOn_lines h2, h3, joinSysLines_end]
  simp [ok_bind]

/-- the value lines of a header text -/
theorem headerText_entries (v : Nat) (es : List HEntry) (hok : ∀ e ∈ es, e.Ok) (ls : List Str)
    (hp : PhysicalLines ls (es.map (HEntry.lines v)).flatten) :
    ∃ hs, (∀ h ∈ hs, h.Ok) ∧ HeaderText v ls hs ∧
      ∀ {α : Type} (f : HLine → Option α), (∀ l, f (.other l) = none) → hs.findSome? f = (linesOf es).findSome? f := by
  induction es generalizing ls with
  | nil =>
    cases ls with
    | nil => exact ⟨[], by simp, trivial, by simp [linesOf]⟩
    | cons => simp [PhysicalLines] at hp
  | cons e es ih =>
    rw [List.map_cons, List.flatten_cons] at hp
    obtain ⟨la, lb, rfl, ha, hb⟩ := physicalLines_append hp
    obtain ⟨hs, i1, i2, i3⟩ := ih (fun x hx => hok x (by simp [hx])) lb hb
    have he := hok e (by simp)
    have happ : ∀ (as : List HLine) (la : List Str), HeaderText v la as → HeaderText v (la ++ lb) (as ++ hs) := by
      intro as la h
      induction la generalizing as with
      | nil => cases as with
        | nil => exact i2
        | cons => simp [HeaderText] at h
      | cons l la ih => cases as with
        | nil => simp [HeaderText] at h
        | cons a as => exact ⟨h.1, ih as h.2⟩
    have hws : ∀ w : Str, (∀ x ∈ w, isSpace x = true ∧ x ≠ '\n') → ∀ x ∈ w ++ ['\n'], isSpace x = true := by
      intro w hw x hx
      rcases List.mem_append.1 hx with h | h
      · exact (hw x h).1
      · rw [List.mem_singleton.1 h]; decide
    cases e with
    | line h =>
      refine ⟨h :: hs, ?_, happ [h] la ?_, ?_⟩
      · intro x hx
        rcases List.mem_cons.1 hx with rfl | hx
        · exact he.1
        · exact i1 x hx
      · cases la with
        | nil => simp [PhysicalLines, HEntry.lines] at ha
        | cons l la =>
          cases la with
          | cons => simp [PhysicalLines, HEntry.lines] at ha
          | nil =>
            obtain ⟨w, hl, hw⟩ := ha.1
            exact ⟨⟨w ++ ['\n'], by rw [hl, List.append_assoc], hws w hw⟩, trivial⟩
      · intro α f hf
        simp only [linesOf, List.findSome?_cons, i3 f hf]
    | sys s n codes =>
      obtain ⟨hs', hn, hc⟩ := he
      refine ⟨(sysLines s n codes).map HLine.other ++ hs, ?_, happ _ la ?_, ?_⟩
      · intro x hx
        rcases List.mem_append.1 hx with hx | hx
        · obtain ⟨l, hl, rfl⟩ := List.mem_map.1 hx
          have := sysLines_label (s := s) (codes := codes) hn l hl [] (by simp)
          rw [List.append_nil] at this
          show headerLabel l ∉ _
          rw [this]; decide
        · exact i1 x hx
      · simp only [HEntry.lines] at ha
        generalize sysLines s n codes = Z at ha
        clear * - ha hws
        induction la generalizing Z with
        | nil => cases Z with
          | nil => trivial
          | cons => simp [PhysicalLines] at ha
        | cons l la ih => cases Z with
          | nil => simp [PhysicalLines] at ha
          | cons z Z =>
            obtain ⟨⟨w, hl, hw⟩, ha⟩ := ha
            exact ⟨⟨w ++ ['\n'], by rw [hl, List.append_assoc]; rfl, hws w hw⟩, ih Z ha⟩
      · intro α f hf
        rw [List.findSome?_append]
        have : ((sysLines s n codes).map HLine.other).findSome? f = none := by
          rw [List.findSome?_eq_none_iff]
          intro x hx
          obtain ⟨l, _, rfl⟩ := List.mem_map.1 hx
          exact hf l
        rw [this]
        simp only [linesOf, Option.none_or, i3 f hf]

/-- the header values announced by the value lines -/
def valuesOf (v : Nat) (es : List HEntry) (old : HeaderVals) : HeaderVals :=
  { verType := ((linesOf es).findSome? (HLine.saysVersion v)).or old.verType
    tofo := ((linesOf es).findSome? HLine.saysFirstObs).or old.tofo
    xyz := ((linesOf es).findSome? HLine.saysPosition).getD old.xyz
    interval := ((linesOf es).findSome? (HLine.saysInterval v)).or old.interval }

theorem parseHeader_entries (v : Nat) (es : List HEntry) (hok : ∀ e ∈ es, e.Ok) (ls : List Str)
    (hp : PhysicalLines ls (es.map (HEntry.lines v)).flatten) (old : HeaderVals) :
    parseHeader v ls old = .ok (valuesOf v es old) := by
  obtain ⟨hs, h1, h2, h3⟩ := headerText_entries v es hok ls hp
  rw [C23_header v ls hs h1 h2 old]
  simp only [valuesOf]
  rw [h3 (HLine.saysVersion v) (fun _ => rfl), h3 HLine.saysFirstObs (fun _ => rfl), h3 HLine.saysPosition (fun _ => rfl),
    h3 (HLine.saysInterval v) (fun _ => rfl)]

/-- C17: the types read for every system are those written, in order, for any number of types per system; BeiDou band 1 is
renamed from version 3.02 on, and only there (`Code.means`); the other header values are those of C23. -/
theorem C17_types (v : Nat) (es : List HEntry) (hok : ∀ e ∈ es, e.Ok) (ls : List Str)
    (hp : PhysicalLines ls (es.map (HEntry.lines v)).flatten) (o : Obj3) (hc : Consistent o.sys es) :
    parseHeader3 v ls o = .ok ⟨valuesOf v es o.hdr, o.sys ++ typesOf v es⟩ := by
  unfold parseHeader3
  rw [parseHeader_entries v es hok ls hp o.hdr]
  simp only [assign_entries v es hok ls hp, addSystems_ok v es hok o.sys hc]

/-- C17: a wrong number of types, a system announced twice, or one that is already known: the header is rejected. -/
theorem C17_rejected (v : Nat) (es : List HEntry) (hok : ∀ e ∈ es, e.Ok) (ls : List Str)
    (hp : PhysicalLines ls (es.map (HEntry.lines v)).flatten) (o : Obj3) (hc : ¬ Consistent o.sys es) :
    parseHeader3 v ls o = .error .assertion ∨ parseHeader3 v ls o = .error .header := by
  unfold parseHeader3
  rw [parseHeader_entries v es hok ls hp o.hdr]
  simp only [assign_entries v es hok ls hp]
  rcases addSystems_bad v es hok o.sys hc with h | h <;> rw [h] <;> simp

/-- satellite systems are looked up by their letter -/
theorem typesOf_get (v : Nat) (es : List HEntry) (s : Char) :
    (typesOf v es).get? [s] = ((sysOf es).find? fun p => p.1 = s).map fun p => p.2.2.map (Code.means v p.1) := by
  induction es with
  | nil => rfl
  | cons e es ih =>
    cases e with
    | line h => exact ih
    | sys c n codes =>
      simp only [typesOf, sysOf, Dict.get?, List.find?_cons]
      by_cases h : c = s
      · simp [h]
      · simp [h, ih]

/-! Hypotheses are met: two systems, one with fifteen types (two lines), BeiDou band 1, a position. -/

def exCodes : List Code := (List.range 15).map fun i => ⟨'C', digit (i % 10), 'X'⟩
def exEntries : List HEntry :=
  [.line (.version 302 'O' 'M' (c% "BSERVATION DATA", c% ": MIXED")), .sys 'G' 15 exCodes, .line (.position 12345678 (-2345678) 9), .sys 'C' 2 [⟨'C', '1', 'I'⟩, ⟨'L', '7', 'I'⟩]]

example : (∀ e ∈ exEntries, e.Ok) ∧ Consistent [] exEntries := by
  refine ⟨?_, ?_, by decide, by simp [Dict.keys]⟩
  · intro e he
    simp only [exEntries, List.mem_cons, List.not_mem_nil, or_false] at he
    rcases he with rfl | rfl | rfl | rfl
    · exact ⟨⟨by decide, by decide⟩, by simp⟩
    · refine ⟨by decide, by omega, ?_⟩
      intro c hc
      simp only [exCodes, List.mem_map, List.mem_range] at hc
      obtain ⟨i, hi, rfl⟩ := hc
      refine ⟨by show isSpace 'C' = false; decide, ?_, by show isSpace 'X' = false; decide, by simp, by simp⟩
      exact isDigit_not_space (digit_isDigit (by omega))
    · refine ⟨?_, by simp⟩
      show ∀ n ∈ _, _
      decide
    · refine ⟨by decide, by omega, ?_⟩
      intro c hc
      simp only [List.mem_cons, List.not_mem_nil, or_false] at hc
      rcases hc with rfl | rfl <;> (unfold Code.Ok; decide)
  · intro s n codes hm
    simp only [exEntries, List.mem_cons, reduceCtorEq, HEntry.sys.injEq, List.not_mem_nil, or_false, false_or] at hm
    rcases hm with ⟨_, rfl, rfl⟩ | ⟨_, rfl, rfl⟩ <;> rfl

example : (typesOf 302 exEntries).get? (c% "C") = some [c% "C2I", c% "L7I"] ∧
    (typesOf 301 exEntries).get? (c% "C") = some [c% "C1I", c% "L7I"] := by decide

end Verif.Props
