import Verif.Spec.Apart
import Verif.Props.Stops
import Verif.Props.Batch
import Verif.Props.MainHeader
import Verif.Props.Shared
/-!
# Satellites do not influence each other (C110)
-/
namespace Verif.Props
open Verif.Py Verif.Spec Verif.Model Verif.Proofs

/-- what an item of a system that occurred before, or not, adds -/
def adds (P : Prm) (xyz : Dict DateTime Pos) (it : ObsItem) (c : Char) (n : Int) (e : DateTime) (seen : Bool) : List Rec :=
  if navFlow P e.date c seen = .skip then [] else writesFor P xyz it c n e

theorem adds_sat (P : Prm) (xyz : Dict DateTime Pos) (it : ObsItem) (c : Char) (n : Int) (e : DateTime) (seen : Bool) : ∀ w ∈ adds P xyz it c n e seen, w.1 = it.sat := by
  intro w hw
  unfold adds at hw
  split at hw
  · cases hw
  · unfold writesFor at hw
    split at hw
    · rw [List.mem_singleton.1 hw]
    · cases hw

theorem ref_apart (P : Prm) (o o' : ObsIn) (hd : o'.fileDate = o.fileDate) (xyz : Dict DateTime Pos) (K : Str → Bool) (closed : Char → Prop) (items : List ObsItem)
    (hdec : ∀ it ∈ items, ∃ r, decode it = .ok r)
    (hclosed : ∀ it ∈ items, ∀ c n e, Considered o it c n e → closed c → K it.sat = true)
    (hK : ∀ it ∈ items, ∀ c n e, Considered o it c n e → K it.sat = true → closed c ∨ ∀ b, adds P xyz it c n e b = adds P xyz it c n e true) :
    ∀ last last' (seen seen' : Char → Bool), (∀ c, closed c → seen c = seen' c) →
      (refWrites P o none xyz items last seen).filter (fun w => K w.1) = refWrites P o' none xyz (items.filter (fun it => K it.sat)) last' seen' := by
  induction items with
  | nil => intro _ _ _ _ _; rfl
  | cons it its ih =>
    intro last last' seen seen' hs
    have ih := ih (fun i h => hdec i (by simp [h])) (fun i h => hclosed i (by simp [h])) (fun i h => hK i (by simp [h]))
    have hcons : ∀ c n e, Considered o' it c n e ↔ Considered o it c n e := by
      intro c n e; unfold Considered; rw [hd]
    cases ha : admit o none last it with
    | error er =>
      obtain ⟨r, hr⟩ := hdec it (by simp)
      rw [(admit_error ..).1 ha] at hr; cases hr
    | ok a =>
      cases a with
      | none =>
        simp only [refWrites, ha]
        by_cases hk : K it.sat = true
        · rw [List.filter_cons_of_pos (by simpa using hk)]
          obtain ⟨a1, a2⟩ := (admit_none ..).1 ha
          have ha' : admit o' none last' it = .ok none := by
            refine (admit_none ..).2 ⟨a1, fun c n e hc => ?_⟩
            have := a2 c n e ((hcons ..).1 hc)
            simp [decimate] at this
          simp only [refWrites, ha']
          exact ih _ _ _ _ hs
        · rw [List.filter_cons_of_neg (by simpa using hk)]
          exact ih _ _ _ _ hs
      | some q =>
        obtain ⟨c, n, e, l1⟩ := q
        obtain ⟨hc, -⟩ := (admit_some ..).1 ha
        simp only [refWrites, ha]
        rw [List.filter_append]
        by_cases hk : K it.sat = true
        · rw [List.filter_cons_of_pos (by simpa using hk)]
          have ha' : admit o' none last' it = .ok (some (c, n, e, last')) := (admit_some ..).2 ⟨(hcons ..).2 hc, by simp [decimate]⟩
          simp only [refWrites, ha']
          congr 1
          · have hadd : adds P xyz it c n e (seen c) = adds P xyz it c n e (seen' c) := by
              rcases hK it (by simp) c n e hc hk with h | h
              · rw [hs c h]
              · rw [h (seen c), h (seen' c)]
            have := List.filter_eq_self.2 (fun w hw => by rw [adds_sat P xyz it c n e (seen c) w hw]; exact hk : ∀ w ∈ adds P xyz it c n e (seen c), K w.1 = true)
            unfold adds at this hadd
            rw [this, hadd]
          · apply ih
            intro c' h
            rw [hs c' h]
        · rw [List.filter_cons_of_neg (by simpa using hk)]
          have h0 := List.filter_eq_nil_iff.2 (fun w hw => by rw [adds_sat P xyz it c n e (seen c) w hw]; exact hk : ∀ w ∈ adds P xyz it c n e (seen c), ¬ K w.1 = true)
          unfold adds at h0
          rw [h0, List.nil_append]
          apply ih
          intro c' h
          have : c ≠ c' := by
            rintro rfl
            exact hk (hclosed it (by simp) c n e hc h)
          simp only [this, decide_false, Bool.false_or]
          exact hs c' h

/-- the calls of a file are those of the reference -/
theorem writes_ref (P : Prm) (files : List FileIn) (fs : FS) (i : Nat) (f : FileIn) (o : ObsIn) (t : DateTime) (xyz : Dict DateTime Pos) (ops : List WOp)
    (hrun : (mainLoop P files Glob.empty fs).2.2.2 = none) (hops : (mainLoop P files Glob.empty fs).2.2.1[i]? = some ops)
    (hf : files[i]? = some f) (ho : f.opened = .ok o) (hx : f.xyzData = .ok xyz) (ha : Accepted o t) (hs : Undecimated P.cfg o)
    (good : P.cfg.navIgnoreAbsence = false ∨ ∀ it ∈ o.items, ∀ c n e, Considered o it c n e → ¬ ArithError P c n e) :
    writesOf ops = refWrites P o none xyz o.items none (fun _ => false) ∧ (∀ it ∈ o.items, ∃ r, decode it = .ok r) ∧
      ∀ it ∈ o.items, ∀ c n e, Considered o it c n e → ∀ er, navFlow P e.date c false ≠ .stop er := by
  obtain ⟨f', g, fs', h1, hg, rfl, -, he⟩ := mainLoop_at P files _ fs (ginv_empty P) i ops hops
  rw [hf] at h1
  cases h1
  obtain ⟨l, hst⟩ := started_of P f o t xyz ho hx ha g fs' (he hrun)
  obtain ⟨hr, hro⟩ := run_of_file P f o t l xyz hst g fs' (he hrun)
  rw [(sampling_none ..).2 hs] at hr hro
  have hinv := start_inv P o t l g fs' hg hst.lbh (dayOf o)
  obtain ⟨new, n1, n2⟩ := ref_spec P o none xyz o.items good none _ hinv hr
  have hneed := run_needs P o xyz o.items none _ hinv (by intro c hc; rw [start_nav] at hc; simp [Dict.has, Dict.get?] at hc) hr
  refine ⟨?_, fun it hi => (hneed it hi).1, fun it hi c n e hc => ((hneed it hi).2 c n e hc).1⟩
  rw [hro, n1, start_ops, writesOf_append, n2, start_nav]
  rfl

theorem considered_head {o : ObsIn} {it : ObsItem} {c : Char} {n : Int} {e : DateTime} (h : Considered o it c n e) : it.sat.head? = some c := by
  obtain ⟨⟨r, hr, -⟩, -⟩ := h
  rw [hr]; rfl

/-- C110: the records of a system depend on the observations of that system only: two files of a day that agree in them give the same records of the system, whatever else
they contain, in any two runs. -/
theorem C110_system (P : Prm) (c : Char) (files files' : List FileIn) (fs fs' : FS) (i i' : Nat) (f f' : FileIn) (o o' : ObsIn) (t t' : DateTime) (xyz : Dict DateTime Pos)
    (ops ops' : List WOp) (hrun : (mainLoop P files Glob.empty fs).2.2.2 = none) (hops : (mainLoop P files Glob.empty fs).2.2.1[i]? = some ops)
    (hrun' : (mainLoop P files' Glob.empty fs').2.2.2 = none) (hops' : (mainLoop P files' Glob.empty fs').2.2.1[i']? = some ops')
    (hf : files[i]? = some f) (ho : f.opened = .ok o) (hx : f.xyzData = .ok xyz) (ha : Accepted o t)
    (hf' : files'[i']? = some f') (ho' : f'.opened = .ok o') (hx' : f'.xyzData = .ok xyz) (ha' : Accepted o' t')
    (hs : Undecimated P.cfg o) (hs' : Undecimated P.cfg o') (hag : AgreeOn (wholeSystem c) o o')
    (good : P.cfg.navIgnoreAbsence = false ∨ (∀ it ∈ o.items, ∀ c n e, Considered o it c n e → ¬ ArithError P c n e) ∧
      ∀ it ∈ o'.items, ∀ c n e, Considered o' it c n e → ¬ ArithError P c n e) :
    (writesOf ops').filter (fun w => wholeSystem c w.1) = (writesOf ops).filter (fun w => wholeSystem c w.1) := by
  obtain ⟨h1, h2, -⟩ := writes_ref P files fs i f o t xyz ops hrun hops hf ho hx ha hs (good.imp id (·.1))
  obtain ⟨h1', h2', -⟩ := writes_ref P files' fs' i' f' o' t' xyz ops' hrun' hops' hf' ho' hx' ha' hs' (good.imp id (·.2))
  have key : ∀ (o1 : ObsIn), (∀ it ∈ o1.items, ∃ r, decode it = .ok r) → o1.fileDate = o.fileDate →
      (refWrites P o1 none xyz o1.items none fun _ => false).filter (fun w => wholeSystem c w.1) =
        refWrites P o none xyz (o1.items.filter fun it => wholeSystem c it.sat) none fun _ => false := by
    intro o1 hd hday
    refine ref_apart P o1 o hday.symm xyz (wholeSystem c) (fun c' => c' = c) o1.items hd ?_ ?_ none none _ _ (fun _ _ => rfl)
    · rintro it _ c' n e hc rfl
      unfold wholeSystem
      rw [considered_head hc, beq_self_eq_true]
    · intro it _ c' n e hc hk
      unfold wholeSystem at hk
      rw [considered_head hc, beq_iff_eq] at hk
      exact .inl (Option.some.inj hk)
  rw [h1, h1', key o h2 rfl, key o' h2' hag.day, hag.items]

/-- C110: the records of a satellite depend on its own observations only, if navigation data are required or there are some for its system. -/
theorem C110_satellite (P : Prm) (sat : Str) (files files' : List FileIn) (fs fs' : FS) (i i' : Nat) (f f' : FileIn) (o o' : ObsIn) (t t' : DateTime) (xyz : Dict DateTime Pos)
    (ops ops' : List WOp) (hrun : (mainLoop P files Glob.empty fs).2.2.2 = none) (hops : (mainLoop P files Glob.empty fs).2.2.1[i]? = some ops)
    (hrun' : (mainLoop P files' Glob.empty fs').2.2.2 = none) (hops' : (mainLoop P files' Glob.empty fs').2.2.1[i']? = some ops')
    (hf : files[i]? = some f) (ho : f.opened = .ok o) (hx : f.xyzData = .ok xyz) (ha : Accepted o t)
    (hf' : files'[i']? = some f') (ho' : f'.opened = .ok o') (hx' : f'.xyzData = .ok xyz) (ha' : Accepted o' t')
    (hs : Undecimated P.cfg o) (hs' : Undecimated P.cfg o') (hag : AgreeOn (oneSatellite sat) o o')
    (hnav : P.cfg.navIgnoreAbsence = false ∨ ∀ c d, sat.head? = some c → o.fileDate = some d → ∃ m, P.load d c = .ok m)
    (good : P.cfg.navIgnoreAbsence = false ∨ (∀ it ∈ o.items, ∀ c n e, Considered o it c n e → ¬ ArithError P c n e) ∧
      ∀ it ∈ o'.items, ∀ c n e, Considered o' it c n e → ¬ ArithError P c n e) :
    (writesOf ops').filter (fun w => oneSatellite sat w.1) = (writesOf ops).filter (fun w => oneSatellite sat w.1) := by
  obtain ⟨h1, h2, -⟩ := writes_ref P files fs i f o t xyz ops hrun hops hf ho hx ha hs (good.imp id (·.1))
  obtain ⟨h1', h2', -⟩ := writes_ref P files' fs' i' f' o' t' xyz ops' hrun' hops' hf' ho' hx' ha' hs' (good.imp id (·.2))
  have key : ∀ (o1 : ObsIn), (∀ it ∈ o1.items, ∃ r, decode it = .ok r) → o1.fileDate = o.fileDate →
      (refWrites P o1 none xyz o1.items none fun _ => false).filter (fun w => oneSatellite sat w.1) =
        refWrites P o none xyz (o1.items.filter fun it => oneSatellite sat it.sat) none fun _ => false := by
    intro o1 hd hday
    refine ref_apart P o1 o hday.symm xyz (oneSatellite sat) (fun _ => False) o1.items hd ?_ ?_ none none _ _ (fun _ _ => rfl)
    · rintro it _ c' n e hc h; exact h.elim
    · intro it _ c' n e hc hk
      refine .inr fun b => ?_
      have hsat : it.sat = sat := by unfold oneSatellite at hk; simpa using hk
      have htrue : navFlow P e.date c' true = .next := by unfold navFlow; rw [if_pos rfl]
      cases b with
      | true => rfl
      | false =>
        unfold adds
        rw [if_neg (c := navFlow P e.date c' true = .skip) (by rw [htrue]; exact fun h => by cases h)]
        split
        · next hskip =>
          rcases hnav with hn | hn
          · have hpo : posOf P c' n e = none := by
              cases hpp : posOf P c' n e with
              | none => rfl
              | some p =>
                obtain ⟨dt, eph, ⟨fl, m, q1, -⟩, -⟩ := (satAt_iff ..).2 hpp
                unfold navFlow at hskip
                rw [if_neg (by simp), q1] at hskip
                cases hskip
            unfold writesFor recOf angles
            simp only [hpo, hn, if_true]
            cases P.lbh (siteOf xyz it e) <;> simp
          · obtain ⟨m, hm⟩ := hn c' e.date (by rw [← hsat]; exact considered_head hc) (by rw [← hday]; exact hc.2.2.2)
            unfold navFlow at hskip
            rw [if_neg (by simp), hm] at hskip
            cases hskip
        · rfl
  rw [h1, h1', key o h2 rfl, key o' h2' hag.day, hag.items]

theorem col_unique {vals : List (Option FVal)} {name : Str} {v v' : Option FVal} (h : ColIs vals name v) (h' : ColIs vals name v') : v = v' := by
  obtain ⟨i, k, h1, h2⟩ := h
  obtain ⟨j, k', h1', h2'⟩ := h'
  have hn : (columns.map (·.1)).Nodup := by decide +kernel
  have hij : i + 3 = j + 3 := by
    have hi : i + 3 < (columns.map (·.1)).length := by rw [List.length_map]; exact (List.getElem?_eq_some_iff.1 h1).1
    refine (List.getElem?_inj hi hn).1 ?_
    rw [List.getElem?_map, List.getElem?_map, h1, h1']; rfl
  obtain rfl : i = j := by omega
  rw [h2] at h2'
  exact Option.some.inj h2'

theorem cols3_unique {vals : List (Option FVal)} {a b c : Str} {p q : Pos} (h : Cols3 vals a b c p) (h' : Cols3 vals a b c q) : p = q := by
  have hx := col_unique h.1 h'.1
  have hy := col_unique h.2.1 h'.2.1
  have hz := col_unique h.2.2 h'.2.2
  simp only [num, Option.some.injEq, FVal.flt.injEq, PyFloat.fin.injEq] at hx hy hz
  cases p; cases q
  simp_all

theorem satDef_unique {P : Prm} {sat : Str} {e : DateTime} {d d' : Str} (h : SatDefIs P sat e d) (h' : SatDefIs P sat e d') : d = d' := by
  obtain ⟨c, r, n, rfl, hn, h⟩ := h
  obtain ⟨c', r', n', h1, hn', h'⟩ := h'
  cases h1
  rw [hn] at hn'
  cases hn'
  rcases h with ⟨rfl, k, hk, rfl⟩ | ⟨rfl, rfl⟩ | ⟨a, b, rfl⟩ <;> rcases h' with ⟨h0, k', hk', rfl⟩ | ⟨h0, rfl⟩ | ⟨a', b', rfl⟩
  · rw [frequency_unique hk hk']
  · cases h0
  · exact absurd rfl a'
  · cases h0
  · rfl
  · exact absurd rfl b'
  · exact absurd h0 a
  · exact absurd h0 b
  · rfl

theorem navSource_unique {P : Prm} {sat : Str} {d : Date} {x y : Option Str} (h : NavSourceIs P sat d x) (h' : NavSourceIs P sat d y) : x = y := by
  obtain ⟨c, r, rfl, h⟩ := h
  obtain ⟨c', r', h1, h'⟩ := h'
  cases h1
  rcases h with ⟨f, m, h, rfl⟩ | ⟨h, rfl⟩ <;> rcases h' with ⟨f', m', h', rfl⟩ | ⟨h', rfl⟩
  · rw [h] at h'; cases h'; rfl
  · exact absurd h (h' _ _)
  · exact absurd h' (h _ _)
  · rfl

theorem texts_unique {P : Prm} {q : Rat} {ws : List Rec} : ∀ {ts ts' : List Str},
    List.Forall₂ (fun (w : Rec) t => recordText P.env P.cfg q w.2.1 w.2.2 = .ok (some t)) ws ts →
    List.Forall₂ (fun (w : Rec) t => recordText P.env P.cfg q w.2.1 w.2.2 = .ok (some t)) ws ts' → ts = ts' := by
  induction ws with
  | nil => intro ts ts' h h'; cases h; cases h'; rfl
  | cons w ws ih =>
    intro ts ts' h h'
    cases h with
    | cons a b =>
      cases h' with
      | cons a' b' =>
        rw [a] at a'
        simp only [Except.ok.injEq, Option.some.injEq] at a'
        rw [a', ih b b']

/-- C110: so is its output file: the same name and the same text, if the observation files have the same name and interval and their epochs are in order. -/
theorem C110_file (P : Prm) (hd : P.cfg.outDir ≠ []) (hd2 : P.cfg.outDir.getLast? ≠ some '/') (A B A' B' : List FileIn) (f f' : FileIn) (fs fs' : FS)
    (hl : ∀ g ∈ A ++ f :: B, ∀ o t, g.opened = .ok o → Accepted o t → LegalTimes o t ∧ ∃ name, LastComponent o.filename name ∧ name ≠ [])
    (hl' : ∀ g ∈ A' ++ f' :: B', ∀ o t, g.opened = .ok o → Accepted o t → LegalTimes o t ∧ ∃ name, LastComponent o.filename name ∧ name ≠ [])
    (hrun : (mainLoop P (A ++ f :: B) Glob.empty fs).2.2.2 = none) (hrun' : (mainLoop P (A' ++ f' :: B') Glob.empty fs').2.2.2 = none)
    (o o' : ObsIn) (t t' : DateTime) (xyz : Dict DateTime Pos) (ho : f.opened = .ok o) (ho' : f'.opened = .ok o') (hx : f.xyzData = .ok xyz) (hx' : f'.xyzData = .ok xyz)
    (ha : Accepted o t) (ha' : Accepted o' t') (hin : InOrder o t) (hin' : InOrder o' t')
    (name : Str) (hname : LastComponent o.filename name) (hsame : o'.filename = o.filename) (hint : o'.interval = o.interval)
    (hs : Undecimated P.cfg o) (sat : Str) (hag : AgreeOn (oneSatellite sat) o o')
    (hnav : P.cfg.navIgnoreAbsence = false ∨ ∀ c d, sat.head? = some c → o.fileDate = some d → ∃ m, P.load d c = .ok m)
    (good : P.cfg.navIgnoreAbsence = false ∨ (∀ it ∈ o.items, ∀ c n e, Considered o it c n e → ¬ ArithError P c n e) ∧
      ∀ it ∈ o'.items, ∀ c n e, Considered o' it c n e → ¬ ArithError P c n e)
    (ops ops' : List WOp) (hops : (mainLoop P (A ++ f :: B) Glob.empty fs).2.2.1[A.length]? = some ops)
    (hops' : (mainLoop P (A' ++ f' :: B') Glob.empty fs').2.2.1[A'.length]? = some ops')
    (e : DateTime) (v : List (Option FVal)) (more : List Rec) (hrec : (writesOf ops).filter (fun w => w.1 == sat) = (sat, e, v) :: more)
    (hlater : ∀ (i : Nat) g ops1, A.length < i → (A ++ f :: B)[i]? = some g → (mainLoop P (A ++ f :: B) Glob.empty fs).2.2.1[i]? = some ops1 →
      ¬ WritesAt P g ops1 (outputPath P.cfg.outDir (name.take 4) sat e))
    (hlater' : ∀ (i : Nat) g ops1, A'.length < i → (A' ++ f' :: B')[i]? = some g → (mainLoop P (A' ++ f' :: B') Glob.empty fs').2.2.1[i]? = some ops1 →
      ¬ WritesAt P g ops1 (outputPath P.cfg.outDir (name.take 4) sat e)) :
    ∃ text, (mainLoop P (A ++ f :: B) Glob.empty fs).2.1.get? (outputPath P.cfg.outDir (name.take 4) sat e) = some text ∧
      (mainLoop P (A' ++ f' :: B') Glob.empty fs').2.1.get? (outputPath P.cfg.outDir (name.take 4) sat e) = some text := by
  have hs' : Undecimated P.cfg o' := by unfold Undecimated; rw [hint]; exact hs
  have heq := C110_satellite P sat _ _ fs fs' A.length A'.length f f' o o' t t' xyz ops ops' hrun hops hrun' hops' (by simp) ho hx ha (by simp) ho' hx' ha' hs hs' hag hnav good
  have hrec' : (writesOf ops').filter (fun w => w.1 == sat) = (sat, e, v) :: more := by rw [← hrec]; exact heq
  obtain ⟨sd, nv, p, l, ts, c1, c2, c3, c4, c5, c6⟩ := C76_files P hd hd2 A B f fs hl hrun o ho name hname ops hops sat e v more hrec hlater
  obtain ⟨sd', nv', p', l', ts', c1', c2', c3', c4', c5', c6'⟩ :=
    C76_files P hd hd2 A' B' f' fs' hl' hrun' o' ho' name (by rw [hsame]; exact hname) ops' hops' sat e v more hrec' hlater'
  refine ⟨_, c6, ?_⟩
  rw [c6']
  have hg : o.tofo = some (t, c% "GPS") := ((accepted_iff ..).1 ha).2
  have hg' : o'.tofo = some (t', c% "GPS") := ((accepted_iff ..).1 ha').2
  rw [hint] at c5'
  rw [satDef_unique c1' c1, navSource_unique c2' c2, cols3_unique (c4' _ hg' hin').1 (c4 _ hg hin).1, cols3_unique (c4' _ hg' hin').2 (c4 _ hg hin).2, texts_unique c5' c5]
  unfold samplingShown
  rw [hsame, hint]

/-- the example file without the GLONASS satellite: the records of the GPS satellite are the same, and so is its output file -/
theorem C110_example :
    let o : ObsIn := { MainEx.obs with items := MainEx.obs.items.filter fun it => oneSatellite (c% "G01") it.sat }
    let P := MainEx.prm false none MainEx.loadBoth MainEx.posOk
    AgreeOn (wholeSystem 'G') MainEx.obs o ∧ AgreeOn (oneSatellite (c% "G01")) MainEx.obs o ∧ o.items.length = 3 ∧ MainEx.obs.items.length = 4 ∧
    Undecimated P.cfg o ∧ Accepted o (MainEx.at_ 0 0) ∧
    (mainLoop P [⟨.ok o, MainEx.file.xyzData⟩] Glob.empty []).2.2.2 = none ∧
    (mainLoop P [⟨.ok o, MainEx.file.xyzData⟩] Glob.empty []).2.2.1.map (fun ops => MainEx.shown (writesOf ops)) =
      [[(c% "G01", 0, 0, some 8, some 1), (c% "G01", 0, 30, some 11, some 4), (c% "G01", 1, 0, some 8, some 1)]] ∧
    (mainLoop P [⟨.ok o, MainEx.file.xyzData⟩] Glob.empty []).2.1.get? (c% "out/2015/002/irkj/irkj_G01_002_15.dat") =
      (mainLoop P [MainEx.file] Glob.empty []).2.1.get? (c% "out/2015/002/irkj/irkj_G01_002_15.dat") := by
  refine ⟨⟨rfl, rfl⟩, ⟨rfl, rfl⟩, rfl, rfl, .inl rfl, ⟨.inr rfl, rfl⟩, ?_, ?_, ?_⟩ <;> decide +kernel

/-- with decimation the satellites do influence each other: an observation of another satellite, that gives no record, decides which observations are used -/
theorem C110_decimation :
    let P := MainEx.prm false (some 60000000) MainEx.loadBoth MainEx.posOk
    let o : ObsIn := { MainEx.obs with items := [MainEx.item (c% "R05") 0 0, MainEx.item (c% "G01") 0 30, MainEx.item (c% "G01") 1 0] }
    let o' : ObsIn := { MainEx.obs with items := [MainEx.item (c% "G01") 0 30, MainEx.item (c% "G01") 1 0] }
    AgreeOn (wholeSystem 'G') o o' ∧
    (mainLoop P [⟨.ok o, .ok []⟩] Glob.empty []).2.2.1.map (fun ops => ((writesOf ops).filter fun w => w.1 == (c% "G01")).map (·.2.1)) = [[MainEx.at_ 1 0]] ∧
    (mainLoop P [⟨.ok o', .ok []⟩] Glob.empty []).2.2.1.map (fun ops => ((writesOf ops).filter fun w => w.1 == (c% "G01")).map (·.2.1)) = [[MainEx.at_ 0 30]] := by
  refine ⟨⟨rfl, rfl⟩, ?_, ?_⟩ <;> decide +kernel

end Verif.Props
