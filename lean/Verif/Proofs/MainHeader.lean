import Verif.Proofs.MainMore
import Verif.Props.Main
/-!
# Proofs: the calls of the writer in order, and what they say about the comment of an output file
-/
namespace Verif.Proofs
open Verif.Py Verif.Model Verif.Spec Verif.Props

/-- the satellite was announced -/
def Announced (ops : List WOp) (sat : Str) : Prop := ∃ d n, WOp.satellite sat d n ∈ ops

/-- the writer knows what the calls said -/
structure Tracks (s : St) : Prop where
  xyz : s.w.xyz = s.ops.foldl xyzF []
  lbh : s.w.lbh = s.ops.foldl lbhF []
  sat : ∀ sat, s.w.satellite.has sat = true ↔ Announced s.ops sat

theorem write_sats (env : WEnv) (cfg : Cfg) (f : Str) (i : Rat) (sat : Str) (e : DateTime) (v : List (Option FVal)) (w : Writer) (fs : FS) (s : Str) :
    (writeData env cfg f i sat e v w fs).w.satellite.has s = w.satellite.has s := by
  have wr : ∀ (w : Writer) (fs : FS), (writeRecord env cfg i sat e v w fs).w = w := by
    intro w fs
    unfold writeRecord
    split <;> try rfl
    split <;> try rfl
    split <;> rfl
  unfold writeData
  simp only
  cases hg : w.satellite.get? sat with
  | none => rfl
  | some i' =>
    simp only
    have hset : ∀ (a : SatInfo), (w.satellite.set sat a).has s = w.satellite.has s := by
      intro a
      unfold Dict.has
      rw [Dict.get?_set]
      by_cases h : sat = s
      · subst h; simp [hg]
      · simp [h]
    split
    · rw [wr]
    · unfold openOut
      simp only
      cases latest (Writer.setFile _ _ _).xyz with
      | error _ => exact hset _
      | ok _ =>
        simp only
        cases latest (Writer.setFile _ _ _).lbh with
        | error _ => exact hset _
        | ok _ => simp only [wr]; exact hset _

theorem call_tracks (P : Prm) (o : ObsIn) (op : WOp) (s : St) (h : Tracks s) : Tracks (call P o op s).1 := by
  obtain ⟨h1, h2, h3⟩ := h
  cases op with
  | satellite a d n =>
    refine ⟨?_, ?_, ?_⟩
    · simp [call, applyOp, Writer.addSatellite, List.foldl_append, xyzF, h1]
    · simp [call, applyOp, Writer.addSatellite, List.foldl_append, lbhF, h2]
    · intro sat
      have := h3 sat
      simp only [call, applyOp, Writer.addSatellite, Announced, List.mem_append, List.mem_singleton, WOp.satellite.injEq] at *
      unfold Dict.has at *
      rw [Dict.get?_set]
      by_cases hs : a = sat
      · subst hs
        simp only [if_true, Option.isSome_some, true_iff]
        exact ⟨d, n, .inr (by simp)⟩
      · rw [if_neg hs, this]
        constructor
        · rintro ⟨x, y, hx⟩; exact ⟨x, y, .inl hx⟩
        · rintro ⟨x, y, hx | ⟨hx, -⟩⟩
          · exact ⟨x, y, hx⟩
          · exact absurd hx.symm hs
  | position t p =>
    refine ⟨?_, ?_, ?_⟩
    · simp [call, applyOp, Writer.updateXyz, List.foldl_append, xyzF, h1]
    · simp [call, applyOp, Writer.updateXyz, List.foldl_append, lbhF, h2]
    · intro sat
      simpa [call, applyOp, Writer.updateXyz, Announced] using h3 sat
  | geodetic t p =>
    refine ⟨?_, ?_, ?_⟩
    · simp [call, applyOp, Writer.updateLbh, List.foldl_append, xyzF, h1]
    · simp [call, applyOp, Writer.updateLbh, List.foldl_append, lbhF, h2]
    · intro sat
      simpa [call, applyOp, Writer.updateLbh, Announced] using h3 sat
  | write a e v =>
    have hf := write_frame P.env P.cfg o.filename o.interval a e v s.w s.fs
    refine ⟨?_, ?_, ?_⟩
    · simp only [call, applyOp, List.foldl_append, List.foldl_cons, List.foldl_nil, xyzF]
      rw [hf.1, h1]
    · simp only [call, applyOp, List.foldl_append, List.foldl_cons, List.foldl_nil, lbhF]
      rw [hf.2, h2]
    · intro sat
      simp only [call, applyOp]
      rw [write_sats, h3 sat]
      simp [Announced]

/-- the position is announced if it is not the one known -/
inductive Moved (P : Prm) (pre : List WOp) (e : DateTime) (x l : Pos) : List WOp → Prop
  | same : latest (pre.foldl xyzF []) = .ok x → Moved P pre e x l pre
  | new : latest (pre.foldl xyzF []) ≠ .ok x → Moved P pre e x l (pre ++ [.position e x, .geodetic e l])

/-- the record, after the announcement of the satellite if that is necessary -/
inductive Emitted (P : Prm) (xyz : Dict DateTime Pos) (it : ObsItem) (c : Char) (n : Int) (e : DateTime) (mid : List WOp) : List WOp → Prop
  | nothing : Emitted P xyz it c n e mid mid
  | more (v) : recOf P xyz it c n e = .ok (some v) → Announced mid it.sat → Emitted P xyz it c n e mid (mid ++ [.write it.sat e v])
  | first (v k) : recOf P xyz it c n e = .ok (some v) → ¬ Announced mid it.sat → FrequencyNumber P c n e k →
      Emitted P xyz it c n e mid (mid ++ [.satellite it.sat (satDefOf P c n it.sat k) (fileOf P e.date c), .write it.sat e v])

/-- the calls for a file: `done` are the items read so far -/
inductive Calls (P : Prm) (o : ObsIn) (xyz : Dict DateTime Pos) (t : DateTime) : List ObsItem → List WOp → Prop
  | start (l) : P.lbh o.xyz = .ok l → Calls P o xyz t [] [.position t o.xyz, .geodetic t l]
  | pass (done it ops) : Calls P o xyz t done ops → Calls P o xyz t (done ++ [it]) ops
  | item (done it c n e l pre mid ops) : Calls P o xyz t done pre → Considered o it c n e → P.lbh (siteOf xyz it e) = .ok l →
      Moved P pre e (siteOf xyz it e) l mid → Emitted P xyz it c n e mid ops → Calls P o xyz t (done ++ [it]) ops

theorem site_moved (P : Prm) (o : ObsIn) (xyz : Dict DateTime Pos) (it : ObsItem) (d : Date) (e : DateTime) (s : St) (h : SInv P d s) (ht : Tracks s) :
    Tracks (siteStage P o xyz e it.xyz s).1 ∧
    ((siteStage P o xyz e it.xyz s).2 = .next → ∃ l, P.lbh (siteOf xyz it e) = .ok l ∧ Moved P s.ops e (siteOf xyz it e) l (siteStage P o xyz e it.xyz s).1.ops) ∧
    ((siteStage P o xyz e it.xyz s).2 ≠ .next → (siteStage P o xyz e it.xyz s).1.ops = s.ops) := by
  obtain ⟨g, x, l, nm, w, fs, ops⟩ := s
  obtain ⟨hg, hn, hl, lat⟩ := h
  have hxyz := ht.xyz
  simp only at hg hn hl lat hxyz
  have track : ∀ p l', Tracks ⟨g, p, l', nm, w, fs, ops⟩ := fun p l' => ⟨ht.xyz, ht.lbh, ht.sat⟩
  obtain ⟨⟨q, hq⟩, lat2⟩ := lat
  have key : ∀ (p : Pos), p = siteOf xyz it e → ∀ r : St × Flow,
      (r = match P.lbh p with
        | .error er => ((⟨g, p, l, nm, w, fs, ops⟩ : St), Flow.stop er)
        | .ok l' => if p ≠ q then ((call P o (.geodetic e l') (call P o (.position e p) ⟨g, p, l', nm, w, fs, ops⟩).1).1, .next)
            else (⟨g, p, l', nm, w, fs, ops⟩, .next)) →
      Tracks r.1 ∧ (r.2 = .next → ∃ l, P.lbh (siteOf xyz it e) = .ok l ∧ Moved P ops e (siteOf xyz it e) l r.1.ops) ∧ (r.2 ≠ .next → r.1.ops = ops) := by
    intro p hp r hr
    rw [← hp]
    cases hb : P.lbh p with
    | error er =>
      rw [hb] at hr
      subst hr
      exact ⟨track .., (by intro h; cases h), fun _ => rfl⟩
    | ok l' =>
      rw [hb] at hr
      simp only at hr
      split at hr
      · rename_i hne
        subst hr
        refine ⟨call_tracks _ _ _ _ (call_tracks _ _ _ _ (track ..)), fun _ => ⟨l', rfl, ?_⟩, fun h => absurd rfl h⟩
        have := Moved.new (P := P) (pre := ops) (e := e) (x := p) (l := l') (by rw [← hxyz, hq]; intro h; cases h; exact hne rfl)
        simpa [call] using this
      · rename_i hne
        subst hr
        refine ⟨track .., fun _ => ⟨l', rfl, .same ?_⟩, fun h => absurd rfl h⟩
        rw [← hxyz, hq, not_not.1 hne]
  unfold siteStage
  cases hx : xyz.get? e with
  | some p =>
    apply key p (by simp [siteOf, hx])
    cases hb : P.lbh p <;> simp only [hb, hq]
  | none =>
    have hs : it.xyz = siteOf xyz it e := by simp [siteOf, hx]
    apply key it.xyz hs
    by_cases hne : x ≠ it.xyz
    · simp only [if_pos hne]
      cases hb : P.lbh it.xyz <;> simp only [hq]
    · simp only [if_neg hne]
      have : x = it.xyz := not_not.1 hne
      subst this
      simp only [hl, hq]

theorem emit_out (P : Prm) (o : ObsIn) (xyz : Dict DateTime Pos) (it : ObsItem) (c : Char) (n : Int) (e : DateTime) (s : St) (h : SInv P e.date s)
    (hx : s.x = siteOf xyz it e) (hp : s.g.satXyz.get? (c, n, e) = some (posOf P c n e))
    (hf : ∀ p, s.g.satXyz.get? (c, n, e) = some (some p) → c = 'R' → s.g.gloFreq.get? (n, e) = freqOf P n e)
    (hn : s.navMsg.get? c = some (tableOf P e.date c)) (ht : Tracks s) :
    Emitted P xyz it c n e s.ops (emitStage P o it c n e.date e s).1.ops ∧ Tracks (emitStage P o it c n e.date e s).1 := by
  have hl := h.lbh
  rw [hx] at hl
  unfold emitStage
  rw [hp, hx]
  simp only
  cases ha : angles P c (siteOf xyz it e) (posOf P c n e) with
  | error er => exact ⟨.nothing, ht⟩
  | ok r =>
    cases r with
    | none => exact ⟨.nothing, ht⟩
    | some r =>
      obtain ⟨sp, el, az⟩ := r
      simp only
      have hfe : (if c = 'R' then s.g.gloFreq.get? (n, e) else some (0, 0, 0)) = (if c = 'R' then freqOf P n e else some (0, 0, 0)) := by
        by_cases hR : c = 'R'
        · simp only [hR, if_true]
          have : ∃ p, posOf P c n e = some p := by
            cases hpo : posOf P c n e with
            | some p => exact ⟨p, rfl⟩
            | none =>
              rw [hpo] at ha
              unfold angles at ha
              simp only [hR, if_true] at ha
              split at ha <;> cases ha
          obtain ⟨p, hpp⟩ := this
          exact hf p (by rw [hp, hpp]) hR
        · simp only [hR, if_false]
      rw [hfe]
      cases hq : (if c = 'R' then freqOf P n e else some (0, 0, 0)) with
      | none => exact ⟨.nothing, ht⟩
      | some q =>
        obtain ⟨f1, f2, k⟩ := q
        simp only
        cases hv : values P it c (f1, f2) el az sp (siteOf xyz it e) s.l with
        | error er => exact ⟨.nothing, ht⟩
        | ok r =>
          cases r with
          | none => exact ⟨.nothing, ht⟩
          | some v =>
            have hrec : recOf P xyz it c n e = .ok (some v) := by
              unfold recOf
              simp only [hl, ha, hq, hv]
            simp only
            have hlen := values_length _ _ _ _ _ _ _ _ _ _ hv
            unfold outStage
            rw [formatDef_length, hlen]
            simp only [ne_eq, not_true_eq_false, if_false, Nat.reduceAdd, Nat.reduceSub]
            split
            · rename_i hhas
              exact ⟨.more v hrec ((ht.sat _).1 hhas), call_tracks _ _ _ _ ht⟩
            · rename_i hhas
              obtain ⟨-, row, hr1, hr2⟩ := h.nav c _ hn
              rw [hr1]
              simp only
              rw [hr2]
              simp only
              refine ⟨?_, call_tracks _ _ _ _ (call_tracks _ _ _ _ ht)⟩
              have := Emitted.first (P := P) (xyz := xyz) (it := it) (c := c) (n := n) (e := e) (mid := s.ops) v k hrec (fun ha => hhas ((ht.sat _).2 ha))
                (frequency_of P c n e f1 f2 k hq).1
              simpa [call] using this


theorem process_calls (P : Prm) (o : ObsIn) (xyz : Dict DateTime Pos) (t : DateTime) (done : List ObsItem) (it : ObsItem) (c : Char) (n : Int) (e : DateTime) (s : St)
    (h : SInv P e.date s) (ht : Tracks s) (hc : Considered o it c n e) (hcalls : Calls P o xyz t done s.ops) :
    Calls P o xyz t (done ++ [it]) (process P o xyz it c n e s).1.ops ∧ Tracks (process P o xyz it c n e s).1 := by
  unfold process
  obtain ⟨nf, nm, n1, n2, n3⟩ := navStage_spec P e.date c s h
  simp only
  have ho1 : (navStage P c e.date s).1.ops = s.ops := by rw [n1]
  have ht1 : Tracks (navStage P c e.date s).1 := by rw [n1]; exact ⟨ht.xyz, ht.lbh, ht.sat⟩
  have hm1 : (navStage P c e.date s).1.navMsg = nm := by rw [n1]
  generalize navStage P c e.date s = A at *
  obtain ⟨a, fa⟩ := A
  simp only at n1 n2 n3 ho1 ht1 hm1 ⊢
  cases hfa : fa with
  | stop er => exact ⟨.pass _ _ _ (by simp only; rw [ho1]; exact hcalls), ht1⟩
  | skip => exact ⟨.pass _ _ _ (by simp only; rw [ho1]; exact hcalls), ht1⟩
  | next =>
    simp only
    obtain ⟨i1, i2, i3⟩ := n3 (by rw [hfa]; simp)
    obtain ⟨sx, gf, p1, p2, p3⟩ := posStage_spec P c n e a i1 (by rw [hm1]; exact i2)
    have ho2 : (posStage P c n e a).1.ops = s.ops := by rw [p1]; exact ho1
    have ht2 : Tracks (posStage P c n e a).1 := by rw [p1]; exact ⟨ht1.xyz, ht1.lbh, ht1.sat⟩
    have hm2 : (posStage P c n e a).1.navMsg = nm := by rw [p1]; exact hm1
    have hx2 : (posStage P c n e a).1.g.satXyz = sx := by rw [p1]
    have hg2 : (posStage P c n e a).1.g.gloFreq = gf := by rw [p1]
    generalize posStage P c n e a = B at *
    obtain ⟨b, fb⟩ := B
    simp only at p1 p2 p3 ho2 ht2 hm2 hx2 hg2 ⊢
    cases hfb : fb with
    | stop er => exact ⟨.pass _ _ _ (by simp only; rw [ho2]; exact hcalls), ht2⟩
    | skip => exact ⟨.pass _ _ _ (by simp only; rw [ho2]; exact hcalls), ht2⟩
    | next =>
      simp only
      obtain ⟨j1, j2, j3⟩ := p3 (by rw [hfb]; simp)
      obtain ⟨s1, s2, s3, -, s5, s6, s7⟩ := siteStage_spec P o xyz it e.date e b j1
      obtain ⟨m1, m2, m3⟩ := site_moved P o xyz it e.date e b j1 ht2
      generalize siteStage P o xyz e it.xyz b = C at *
      obtain ⟨u, fu⟩ := C
      simp only at s1 s2 s3 s5 s6 s7 m1 m2 m3 ⊢
      rw [ho2] at m2 m3
      cases hfu : fu with
      | stop er => exact ⟨.pass _ _ _ (by simp only; rw [m3 (by rw [hfu]; simp)]; exact hcalls), m1⟩
      | skip => exact ⟨.pass _ _ _ (by simp only; rw [m3 (by rw [hfu]; simp)]; exact hcalls), m1⟩
      | next =>
        simp only
        obtain ⟨l, m4, m5⟩ := m2 hfu
        obtain ⟨t1, t2⟩ := s5 hfu
        obtain ⟨e1, e2⟩ := emit_out P o xyz it c n e u t1 t2 (by rw [s2, hx2]; exact j2) (by rw [s2, hx2, hg2]; exact j3) (by rw [s3, hm2]; exact i2) m1
        exact ⟨.item done it c n e l s.ops _ _ hcalls hc m4 m5 e1, e2⟩

theorem run_calls (P : Prm) (o : ObsIn) (sampling : Option Int) (xyz : Dict DateTime Pos) (t : DateTime) (items : List ObsItem) :
    ∀ last s done, SInv P (dayOf o) s → Tracks s → Calls P o xyz t done s.ops →
      ∃ rest, rest <+: items ∧ Calls P o xyz t (done ++ rest) (runItems P o sampling xyz items last s).1.ops := by
  induction items with
  | nil => intro last s done h1 h2 h3; exact ⟨[], List.prefix_rfl, by simpa [runItems] using h3⟩
  | cons it its ih =>
    intro last s done h1 h2 h3
    simp only [runItems]
    cases ha : admit o sampling last it with
    | error er => exact ⟨[], by simp, by simpa using h3⟩
    | ok a =>
      cases a with
      | none =>
        obtain ⟨rest, r1, r2⟩ := ih last s (done ++ [it]) h1 h2 (.pass _ _ _ h3)
        exact ⟨it :: rest, by simpa using r1, by simpa using r2⟩
      | some q =>
        obtain ⟨c, n, e, last'⟩ := q
        simp only
        obtain ⟨hc, -⟩ := (admit_some ..).1 ha
        have hinv : SInv P e.date s := by rw [← dayOf_considered hc]; exact h1
        have hp := (process_spec P o xyz it c n e s hinv).inv
        obtain ⟨q1, q2⟩ := process_calls P o xyz t done it c n e s hinv h2 hc h3
        generalize process P o xyz it c n e s = R at *
        obtain ⟨u, er⟩ := R
        simp only at q1 q2 hp ⊢
        cases er with
        | some er => exact ⟨[it], by simp, q1⟩
        | none =>
          simp only
          have hinv := hp rfl
          rw [← dayOf_considered hc] at hinv
          obtain ⟨rest, r1, r2⟩ := ih last' u (done ++ [it]) hinv q2 q1
          exact ⟨it :: rest, by simpa using r1, by simpa using r2⟩

theorem file_calls (P : Prm) (f : FileIn) (g : Glob) (fs : FS) (o : ObsIn) (t : DateTime) (l : Pos) (xyz : Dict DateTime Pos)
    (h : Started P f o t l xyz) (hg : GInv P g) : ∃ done, done <+: o.items ∧ Calls P o xyz t done (processFile P f g fs).ops := by
  rw [processFile_started P f g fs o t l xyz h _ rfl]
  have h0 : Calls P o xyz t [] (startState P o t l g fs).ops := .start l h.lbh
  have ht : Tracks (startState P o t l g fs) :=
    call_tracks _ _ _ _ (call_tracks _ _ _ _ ⟨rfl, rfl, by intro sat; simp [Announced, Writer.new, Dict.has, Dict.get?]⟩)
  obtain ⟨rest, r1, r2⟩ := run_calls P o (samplingFor P.cfg o.interval) xyz t o.items none _ [] (start_inv P o t l g fs hg h.lbh (dayOf o)) ht h0
  exact ⟨rest, r1, by simpa using r2⟩

/-! ## consequences -/

/-- positions and geodetic positions in the order of the calls -/
def posList : List WOp → List (DateTime × Pos)
  | [] => []
  | .position t p :: r => (t, p) :: posList r
  | _ :: r => posList r
def geoList : List WOp → List (DateTime × Pos)
  | [] => []
  | .geodetic t p :: r => (t, p) :: geoList r
  | _ :: r => geoList r

theorem posList_append (a b : List WOp) : posList (a ++ b) = posList a ++ posList b := by
  induction a with
  | nil => rfl
  | cons x a ih => cases x <;> simp [posList, ih]
theorem geoList_append (a b : List WOp) : geoList (a ++ b) = geoList a ++ geoList b := by
  induction a with
  | nil => rfl
  | cons x a ih => cases x <;> simp [geoList, ih]
theorem mem_posList (ops : List WOp) (t : DateTime) (p : Pos) : (t, p) ∈ posList ops ↔ WOp.position t p ∈ ops := by
  induction ops with
  | nil => simp [posList]
  | cons x a ih => cases x <;> simp [posList, ih]
theorem mem_geoList (ops : List WOp) (t : DateTime) (p : Pos) : (t, p) ∈ geoList ops ↔ WOp.geodetic t p ∈ ops := by
  induction ops with
  | nil => simp [geoList]
  | cons x a ih => cases x <;> simp [geoList, ih]

/-- each position is announced together with the geodetic one -/
def Paired (P : Prm) (ops : List WOp) : Prop := List.Forall₂ (fun (a b : DateTime × Pos) => a.1 = b.1 ∧ P.lbh a.2 = .ok b.2) (posList ops) (geoList ops)

theorem last_split {α : Type} {t : α} {A B A' B' : List α} (h : A ++ t :: B = A' ++ t :: B') (hB : t ∉ B) (hB' : t ∉ B') : A = A' ∧ B = B' := by
  induction A generalizing A' with
  | nil =>
    cases A' with
    | nil => simpa using h
    | cons a A' =>
      simp only [List.nil_append, List.cons_append, List.cons.injEq] at h
      exact absurd (by rw [h.2]; simp) hB
  | cons a A ih =>
    cases A' with
    | nil =>
      simp only [List.nil_append, List.cons_append, List.cons.injEq] at h
      exact absurd (by rw [← h.2]; simp) hB'
    | cons b A' =>
      simp only [List.cons_append, List.cons.injEq] at h
      obtain ⟨h1, h2⟩ := ih h.2
      exact ⟨by rw [h.1, h1], h2⟩

theorem posList_split {ops : List WOp} {p : Pos} (h : PositionIs ops p) : ∃ A t B, posList ops = A ++ (t, p) :: B ∧ t ∉ B.map (·.1) ∧
    WOp.position t p ∈ ops ∧ ∀ u q, WOp.position u q ∈ ops → instant u ≤ instant t := by
  obtain ⟨pre, t, post, rfl, h1, h2⟩ := h
  refine ⟨posList pre, t, posList post, by rw [posList_append]; rfl, ?_, by simp, h2⟩
  intro hm
  obtain ⟨⟨t', q⟩, hq, rfl⟩ := List.mem_map.1 hm
  exact h1 q ((mem_posList ..).1 hq)
theorem geoList_split {ops : List WOp} {p : Pos} (h : GeodeticIs ops p) : ∃ A t B, geoList ops = A ++ (t, p) :: B ∧ t ∉ B.map (·.1) ∧
    WOp.geodetic t p ∈ ops ∧ ∀ u q, WOp.geodetic u q ∈ ops → instant u ≤ instant t := by
  obtain ⟨pre, t, post, rfl, h1, h2⟩ := h
  refine ⟨geoList pre, t, geoList post, by rw [geoList_append]; rfl, ?_, by simp, h2⟩
  intro hm
  obtain ⟨⟨t', q⟩, hq, rfl⟩ := List.mem_map.1 hm
  exact h1 q ((mem_geoList ..).1 hq)

theorem positionIs_unique {D : Date} {ops : List WOp} (hok : OpsOk D ops) {p q : Pos} (hp : PositionIs ops p) (hq : PositionIs ops q) : p = q := by
  obtain ⟨A, t, B, h1, h2, h3, h4⟩ := posList_split hp
  obtain ⟨A', t', B', h1', h2', h3', h4'⟩ := posList_split hq
  have ht : t = t' := instant_inj (hok _ h3) (hok _ h3') (le_antisymm (h4' _ _ h3) (h4 _ _ h3'))
  subst ht
  have hk : A.map (·.1) ++ t :: B.map (·.1) = A'.map (·.1) ++ t :: B'.map (·.1) := by
    have := congrArg (List.map (·.1)) (h1.symm.trans h1')
    simpa using this
  have hl := congrArg List.length (last_split hk h2 h2').1
  simp only [List.length_map] at hl
  have h := h1.symm.trans h1'
  have := (List.append_inj h hl).2
  simp only [List.cons.injEq, Prod.mk.injEq] at this
  exact this.1.2

theorem paired_latest {D : Date} {P : Prm} {ops : List WOp} (hok : OpsOk D ops) (h : Paired P ops) {p l : Pos} (hp : PositionIs ops p) (hl : GeodeticIs ops l) :
    P.lbh p = .ok l := by
  obtain ⟨A, t, B, h1, h2, h3, h4⟩ := posList_split hp
  obtain ⟨A', t', B', h1', h2', h3', h4'⟩ := geoList_split hl
  unfold Paired at h
  have hkeys : (posList ops).map (·.1) = (geoList ops).map (·.1) := by
    generalize posList ops = a at h
    generalize geoList ops = b at h
    induction h with
    | nil => rfl
    | cons hh _ ih => simp [hh.1, ih]
  have hmem : ∀ u, (∃ q, WOp.position u q ∈ ops) ↔ ∃ q, WOp.geodetic u q ∈ ops := by
    intro u
    have : u ∈ (posList ops).map (·.1) ↔ u ∈ (geoList ops).map (·.1) := by rw [hkeys]
    simp only [List.mem_map, Prod.exists, exists_and_right, exists_eq_right, mem_posList, mem_geoList] at this
    exact this
  have ht : t = t' := by
    obtain ⟨q, hq⟩ := (hmem t').2 ⟨l, h3'⟩
    obtain ⟨q', hq'⟩ := (hmem t).1 ⟨p, h3⟩
    exact instant_inj (hok _ h3) (hok _ h3') (le_antisymm (h4' _ _ hq') (h4 _ _ hq))
  subst ht
  have hk : A.map (·.1) ++ t :: B.map (·.1) = A'.map (·.1) ++ t :: B'.map (·.1) := by
    rw [h1, h1'] at hkeys
    simpa using hkeys
  have hlen := congrArg List.length (last_split hk h2 h2').1
  simp only [List.length_map] at hlen
  rw [h1, h1', List.forall₂_iff_get] at h
  have := h.2 A.length (by simp) (by simp [hlen])
  simp only [List.get_eq_getElem] at this
  simp [List.getElem_append_right, hlen] at this
  exact this

theorem moved_cases {P : Prm} {pre mid : List WOp} {e : DateTime} {x l : Pos} (h : Moved P pre e x l mid) :
    mid = pre ∨ mid = pre ++ [.position e x, .geodetic e l] := by
  cases h
  · exact .inl rfl
  · exact .inr rfl

theorem moved_paired {P : Prm} {pre mid : List WOp} {e : DateTime} {x l : Pos} (h : Moved P pre e x l mid) (hl : P.lbh x = .ok l) (hp : Paired P pre) : Paired P mid := by
  rcases moved_cases h with rfl | rfl
  · exact hp
  · unfold Paired
    rw [posList_append, geoList_append]
    exact List.rel_append hp (.cons ⟨rfl, hl⟩ .nil)

theorem emitted_lists {P : Prm} {xyz : Dict DateTime Pos} {it : ObsItem} {c : Char} {n : Int} {e : DateTime} {mid ops : List WOp} (h : Emitted P xyz it c n e mid ops) :
    posList ops = posList mid ∧ geoList ops = geoList mid := by
  cases h <;> simp [posList_append, geoList_append, posList, geoList]

theorem calls_paired {P : Prm} {o : ObsIn} {xyz : Dict DateTime Pos} {t : DateTime} {done : List ObsItem} {ops : List WOp} (h : Calls P o xyz t done ops) : Paired P ops := by
  induction h with
  | start l hl => exact .cons ⟨rfl, hl⟩ .nil
  | pass _ _ _ _ ih => exact ih
  | item done it c n e l pre mid ops _ _ hl hm he ih =>
    have := moved_paired hm hl ih
    unfold Paired at *
    rw [(emitted_lists he).1, (emitted_lists he).2]
    exact this

theorem recordsOf_app (a b : List WOp) (sat : Str) : recordsOf (a ++ b) sat = recordsOf a sat ++ recordsOf b sat := by
  rw [recordsOf_writes, recordsOf_writes, recordsOf_writes, writesOf_append]; simp

theorem moved_announced {P : Prm} {pre mid : List WOp} {e : DateTime} {x l : Pos} (h : Moved P pre e x l mid) (sat : Str) :
    (Announced mid sat ↔ Announced pre sat) ∧ recordsOf mid sat = recordsOf pre sat := by
  rcases moved_cases h with rfl | rfl
  · simp
  · simp [Announced, recordsOf_app, recordsOf]

theorem calls_announced {P : Prm} {o : ObsIn} {xyz : Dict DateTime Pos} {t : DateTime} {done : List ObsItem} {ops : List WOp} (h : Calls P o xyz t done ops)
    (sat : Str) (ha : Announced ops sat) : recordsOf ops sat ≠ [] := by
  induction h with
  | start l hl => simp [Announced] at ha
  | pass _ _ _ _ ih => exact ih ha
  | item done it c n e l pre mid ops _ _ hl hm he ih =>
    have hmid : Announced mid sat → recordsOf mid sat ≠ [] := by
      intro h
      rw [(moved_announced hm sat).2]
      exact ih ((moved_announced hm sat).1.1 h)
    cases he with
    | nothing => exact hmid ha
    | more v hr hs =>
      rw [recordsOf_app]
      have : recordsOf mid sat ≠ [] := hmid (by simpa [Announced] using ha)
      simp [this]
    | first v k hr hs hk =>
      rw [recordsOf_app]
      by_cases hsat : it.sat = sat
      · simp [recordsOf, hsat]
      · have : recordsOf mid sat ≠ [] := by
          apply hmid
          obtain ⟨d, nv, hd⟩ := ha
          simp only [List.mem_append, List.mem_cons, WOp.satellite.injEq, reduceCtorEq, List.not_mem_nil, or_false] at hd
          rcases hd with hd | ⟨hd, -⟩
          · exact ⟨d, nv, hd⟩
          · exact absurd hd.symm hsat
        simp [this]

theorem calls_positions {P : Prm} {o : ObsIn} {xyz : Dict DateTime Pos} {t : DateTime} {done : List ObsItem} {ops : List WOp} (h : Calls P o xyz t done ops)
    (u : DateTime) (q : Pos) (hm : WOp.position u q ∈ ops) : u = t ∨ ∃ it ∈ done, it.epoch = some u := by
  rw [← mem_posList] at hm
  induction h with
  | start l hl =>
    simp only [posList, List.mem_singleton, Prod.mk.injEq] at hm
    exact .inl hm.1
  | pass _ it _ _ ih => exact (ih hm).imp id fun ⟨it, h1, h2⟩ => ⟨it, by simp [h1], h2⟩
  | item done it c n e l pre mid ops _ hc hl hmv he ih =>
    rw [(emitted_lists he).1] at hm
    rcases moved_cases hmv with rfl | rfl
    · exact (ih hm).imp id fun ⟨it, h1, h2⟩ => ⟨it, by simp [h1], h2⟩
    · rw [posList_append] at hm
      rcases List.mem_append.1 hm with hm | hm
      · exact (ih hm).imp id fun ⟨it, h1, h2⟩ => ⟨it, by simp [h1], h2⟩
      · simp only [posList, List.mem_singleton, Prod.mk.injEq] at hm
        obtain ⟨rfl, rfl⟩ := hm
        exact .inr ⟨it, by simp, hc.2.1⟩

/-- what the calls before the first record of a satellite say -/
structure HeaderIs (P : Prm) (o : ObsIn) (t : DateTime) (pre : List WOp) (sat : Str) (e : DateTime) (v : List (Option FVal)) : Prop where
  paired : Paired P pre
  source : ∀ d nav, SatelliteIs pre sat d nav → SatDefIs P sat e d ∧ NavSourceIs P sat e.date nav
  position : ∀ D, OpsOk D pre → InOrder o t → ∀ p, PositionIs pre p → ∃ l, P.lbh p = .ok l ∧ Cols3 v (c% "site.x") (c% "site.y") (c% "site.z") p ∧
    Cols3 v (c% "site.l") (c% "site.b") (c% "site.h") l

theorem snoc_write {ops pre post : List WOp} {op : WOp} {sat : Str} {e : DateTime} {v : List (Option FVal)} (h : ops ++ [op] = pre ++ .write sat e v :: post) :
    (op = .write sat e v ∧ pre = ops) ∨ ∃ post', ops = pre ++ .write sat e v :: post' := by
  rcases List.eq_nil_or_concat post with rfl | ⟨post', x, rfl⟩
  · have := List.append_inj' h rfl
    left
    simp only [List.cons.injEq, and_true] at this
    exact ⟨this.2, this.1.symm⟩
  · right
    refine ⟨post', ?_⟩
    have h' : ops ++ [op] = (pre ++ .write sat e v :: post') ++ [x] := by simpa using h
    exact (List.append_inj' h' rfl).1

theorem satelliteIs_snoc {ops : List WOp} {sat d d' : Str} {n n' : Option Str} (h : SatelliteIs (ops ++ [.satellite sat d n]) sat d' n') : d' = d ∧ n' = n := by
  obtain ⟨pre, post, h1, h2⟩ := h
  rcases List.eq_nil_or_concat post with rfl | ⟨post', x, rfl⟩
  · have := (List.append_inj' h1 rfl).2
    simp only [List.cons.injEq, WOp.satellite.injEq, true_and, and_true] at this
    exact ⟨this.1.symm, this.2.symm⟩
  · have h' : ops ++ [.satellite sat d n] = (pre ++ .satellite sat d' n' :: post') ++ [x] := by simpa using h1
    have := (List.append_inj' h' rfl).2
    simp only [List.cons.injEq, and_true] at this
    subst this
    exact absurd (by simp) (h2 d n)

theorem header_of_calls {P : Prm} {o : ObsIn} {xyz : Dict DateTime Pos} {t : DateTime} {done : List ObsItem} {ops : List WOp} (h : Calls P o xyz t done ops) :
    done <+: o.items → ∀ pre sat e v post, ops = pre ++ .write sat e v :: post → recordsOf pre sat = [] → HeaderIs P o t pre sat e v := by
  induction h with
  | start l hl =>
    intro _ pre sat e v post h
    have : WOp.write sat e v ∈ [WOp.position t o.xyz, .geodetic t l] := by rw [h]; simp
    simp at this
  | pass done it ops _ ih =>
    intro hp
    exact ih ((List.prefix_append done [it]).trans hp)
  | item done it c n e l pre0 mid ops hcalls hc hl hm he ih =>
    intro hp pre sat e' v post hops hrec
    have ih := ih ((List.prefix_append done [it]).trans hp)
    -- a record before
    have hmid : ∀ post', mid = pre ++ .write sat e' v :: post' → HeaderIs P o t pre sat e' v := by
      intro post' h
      rcases moved_cases hm with rfl | rfl
      · exact ih pre sat e' v post' h hrec
      · have h : (pre0 ++ [WOp.position e (siteOf xyz it e)]) ++ [WOp.geodetic e l] = pre ++ .write sat e' v :: post' := by simpa using h
        rcases snoc_write h with ⟨h, -⟩ | ⟨post2, h⟩
        · cases h
        · rcases snoc_write h with ⟨h, -⟩ | ⟨post3, h⟩
          · cases h
          · exact ih pre sat e' v post3 h hrec
    cases he with
    | nothing => exact hmid post hops
    | more v' hr hs =>
      rcases snoc_write hops with ⟨h, rfl⟩ | ⟨post', h⟩
      · exfalso
        simp only [WOp.write.injEq] at h
        obtain ⟨rfl, rfl, rfl⟩ := h
        rw [(moved_announced hm _).2] at hrec
        exact calls_announced hcalls _ ((moved_announced hm _).1.1 hs) hrec
      · exact hmid post' h
    | first v' k hr hs hk =>
      have hops : (mid ++ [WOp.satellite it.sat (satDefOf P c n it.sat k) (fileOf P e.date c)]) ++ [.write it.sat e v'] = pre ++ .write sat e' v :: post := by
        simpa using hops
      rcases snoc_write hops with ⟨h, rfl⟩ | ⟨post', h⟩
      swap
      · rcases snoc_write h with ⟨h, -⟩ | ⟨post2, h⟩
        · cases h
        · exact hmid post2 h
      simp only [WOp.write.injEq] at h
      obtain ⟨rfl, rfl, rfl⟩ := h
      have hlists : posList (mid ++ [WOp.satellite it.sat (satDefOf P c n it.sat k) (fileOf P e.date c)]) = posList mid ∧
          geoList (mid ++ [WOp.satellite it.sat (satDefOf P c n it.sat k) (fileOf P e.date c)]) = geoList mid := by
        simp [posList_append, geoList_append, posList, geoList]
      refine ⟨?_, ?_, ?_⟩
      · have := moved_paired hm hl (calls_paired hcalls)
        unfold Paired at *
        rw [hlists.1, hlists.2]
        exact this
      · intro d nav hd
        obtain ⟨rfl, rfl⟩ := satelliteIs_snoc hd
        obtain ⟨⟨r, hr1, hr2⟩, -, -, -⟩ := hc
        refine ⟨⟨c, r, n, hr1, hr2, ?_⟩, c, r, hr1, ?_⟩
        · unfold satDefOf
          by_cases hR : c = 'R'
          · exact .inl ⟨hR, k, hk, by rw [if_pos hR]⟩
          · rw [if_neg hR]
            by_cases hS : c = 'S'
            · exact .inr (.inl ⟨hS, by rw [if_pos hS]⟩)
            · exact .inr (.inr ⟨hR, hS, by rw [if_neg hS]⟩)
        · unfold fileOf
          cases hld : P.load e.date c with
          | ok r => obtain ⟨f, m⟩ := r; exact .inl ⟨f, m, rfl, rfl⟩
          | error er => exact .inr ⟨(by intro f m h; cases h), rfl⟩
      · intro D hok hord p hpos
        obtain ⟨x, l', sp, el, az, hgeo⟩ := (recOf_gives P xyz it c n e hc.2.2.1 v' hr).geometry
        have hx : x = siteOf xyz it e := (siteAt_iff ..).1 hgeo.site
        suffices p = x by subst this; exact ⟨l', hgeo.lbh, hgeo.siteCols, hgeo.lbhCols⟩
        have hokm : OpsOk D mid := fun op hop => hok op (by simp [hop])
        have hposm : PositionIs mid p := by
          obtain ⟨A, u, B, h1, h2, h3⟩ := hpos
          rcases List.eq_nil_or_concat B with rfl | ⟨B', y, rfl⟩
          · have := (List.append_inj' h1 rfl).2
            simp at this
          · have h' : mid ++ [WOp.satellite it.sat (satDefOf P c n it.sat k) (fileOf P e.date c)] = (A ++ .position u p :: B') ++ [y] := by simpa using h1
            obtain ⟨h4, h5⟩ := List.append_inj' h' rfl
            refine ⟨A, u, B', h4, fun q hq => h2 q (by simp [hq]), fun w q hq => h3 w q (by simp [hq])⟩
        refine positionIs_unique hokm hposm ?_
        rw [hx]
        cases hm with
        | same hlat => exact position_is _ hokm _ hlat
        | new hlat =>
          refine ⟨pre0, e, [.geodetic e l], rfl, by simp, ?_⟩
          intro u q hq
          simp only [List.mem_append, List.mem_cons, WOp.position.injEq, reduceCtorEq, List.not_mem_nil, or_false] at hq
          rcases hq with hq | ⟨rfl, -⟩
          · obtain ⟨rest, hrest⟩ := hp
            rcases calls_positions hcalls u q hq with rfl | ⟨it', hi, hu⟩
            · exact hord.1 it (by rw [← hrest]; simp) e hc.2.1
            · have hpw := hord.2
              rw [← hrest, List.append_assoc, List.pairwise_append] at hpw
              exact hpw.2.2 it' hi it (by simp) u e hu hc.2.1
          · exact le_refl _

end Verif.Proofs
