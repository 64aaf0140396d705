import Verif.Proofs.MainRun
/-!
# Proofs: files, independence of the history
-/
namespace Verif.Proofs
open Verif.Py Verif.Model Verif.Spec Verif.Props

/-- the file gets as far as the loop over its items -/
structure Started (P : Prm) (f : FileIn) (o : ObsIn) (t : DateTime) (l : Pos) (xyz : Dict DateTime Pos) : Prop where
  opened : f.opened = .ok o
  system : o.system ∈ supported ++ ['M']
  tofo : o.tofo = some (t, c% "GPS")
  lbh : P.lbh o.xyz = .ok l
  data : f.xyzData = .ok xyz

theorem processFile_started (P : Prm) (f : FileIn) (g : Glob) (fs : FS) (o : ObsIn) (t : DateTime) (l : Pos) (xyz : Dict DateTime Pos)
    (h : Started P f o t l xyz) (r : St × Option PyErr)
    (hr : r = runItems P o (samplingFor P.cfg o.interval) xyz o.items none (startState P o t l g fs)) :
    processFile P f g fs = ⟨r.1.g, r.1.fs, r.1.ops, match r.2 with
      | some e => some e
      | none => match o.stop with
        | .ok _ => none
        | .error e => if e = .rinex then none else some e⟩ := by
  unfold processFile
  rw [h.opened]
  simp only
  rw [if_neg (not_not.2 h.system), h.tofo]
  simp only [ne_eq, not_true_eq_false, if_false]
  rw [h.lbh]
  simp only
  rw [h.data]
  simp only
  rw [← hr]
  cases r.2 with
  | some e => rfl
  | none =>
    simp only
    cases o.stop <;> rfl

theorem processFile_cases (P : Prm) (f : FileIn) :
    (∃ o t l xyz, Started P f o t l xyz) ∨ ∃ err, ∀ g fs, processFile P f g fs = ⟨g, fs, [], err⟩ := by
  unfold processFile
  cases h1 : f.opened with
  | error e =>
    right
    by_cases he : e = .rinex ∨ e = .uncompress
    · exact ⟨none, fun g fs => by simp only [he, if_true]⟩
    · exact ⟨some e, fun g fs => by simp only [he, if_false]⟩
  | ok o =>
    simp only
    by_cases h2 : o.system ∉ supported ++ ['M']
    · right; exact ⟨none, fun g fs => by rw [if_pos h2]⟩
    · simp only [if_neg h2]
      cases h3 : o.tofo with
      | none => right; exact ⟨_, fun g fs => rfl⟩
      | some ts =>
        obtain ⟨t, sys⟩ := ts
        simp only
        by_cases h4 : sys = c% "GPS"
        · simp only [h4, ne_eq, not_true_eq_false, if_false]
          cases h5 : P.lbh o.xyz with
          | error e => right; exact ⟨_, fun g fs => rfl⟩
          | ok l =>
            simp only
            cases h6 : f.xyzData with
            | error e => right; exact ⟨_, fun g fs => rfl⟩
            | ok xyz => left; exact ⟨o, t, l, xyz, h1, not_not.1 h2, by rw [h3, h4], h5, h6⟩
        · right; exact ⟨none, fun g fs => by simp only [ne_eq, h4, not_false_eq_true, if_true]⟩

theorem start_inv (P : Prm) (o : ObsIn) (t : DateTime) (l : Pos) (g : Glob) (fs : FS) (hg : GInv P g) (hl : P.lbh o.xyz = .ok l) (d : Date) :
    SInv P d (startState P o t l g fs) := by
  refine ⟨hg, ?_, hl, ?_⟩
  · intro c m h; cases h
  · simp only [startState, call, applyOp, Writer.updateXyz, Writer.updateLbh]
    exact ⟨latest_set _ _ _, latest_set _ _ _⟩

theorem start_winv (P : Prm) (o : ObsIn) (t : DateTime) (l : Pos) (g : Glob) (fs : FS) : WInv P o fs (startState P o t l g fs) := by
  unfold WInv startState call
  rfl

theorem start_ops (P : Prm) (o : ObsIn) (t : DateTime) (l : Pos) (g : Glob) (fs : FS) :
    (startState P o t l g fs).ops = [.position t o.xyz, .geodetic t l] := rfl

theorem start_nav (P : Prm) (o : ObsIn) (t : DateTime) (l : Pos) (g : Glob) (fs : FS) : (startState P o t l g fs).navMsg = [] := rfl

/-- everything about a file that was started -/
structure FileOk (P : Prm) (o : ObsIn) (xyz : Dict DateTime Pos) (t : DateTime) (l : Pos) (fs : FS) (r : FileOut) : Prop where
  ginv : r.err = none → GInv P r.g
  ops : ∃ new, r.ops = .position t o.xyz :: .geodetic t l :: new
  writes : ∀ w ∈ writesOf r.ops, ∃ it ∈ o.items, ∃ c n e, Considered o it c n e ∧ w ∈ writesFor P xyz it c n e
  fail : ∀ er, r.err = some er → Fails P o xyz o.items er ∨ o.stop = .error er ∧ er ≠ .rinex
  fs : ∃ w er, runOps P.env P.cfg o.filename o.interval r.ops Writer.new fs = ⟨w, r.fs, er⟩ ∧ (er = none ∨ er = r.err)

theorem file_ok (P : Prm) (f : FileIn) (g : Glob) (fs : FS) (o : ObsIn) (t : DateTime) (l : Pos) (xyz : Dict DateTime Pos)
    (h : Started P f o t l xyz) (hg : GInv P g) : FileOk P o xyz t l fs (processFile P f g fs) := by
  have hr := runItems_spec P o (samplingFor P.cfg o.interval) xyz o.items none _ (start_inv P o t l g fs hg h.lbh (dayOf o))
  rw [processFile_started P f g fs o t l xyz h _ rfl]
  generalize runItems P o (samplingFor P.cfg o.interval) xyz o.items none (startState P o t l g fs) = r at *
  obtain ⟨s, er⟩ := r
  obtain ⟨r1, ⟨new, r2, r3⟩, r4, r5⟩ := hr
  rw [start_ops] at r2
  simp only at r1 r2 r3 r4 r5 ⊢
  refine ⟨?_, ⟨new, r2⟩, ?_, ?_, ?_⟩
  · intro he
    apply (r1 ?_).g
    cases er with
    | none => rfl
    | some e => cases he
  · rw [r2]; exact r3
  · intro er' he
    cases er with
    | some e => exact .inl (by cases he; exact r4 _ rfl)
    | none =>
      right
      simp only at he
      cases hs : o.stop with
      | ok u => rw [hs] at he; cases he
      | error e =>
        rw [hs] at he
        simp only at he
        split at he
        · cases he
        · rename_i hne; cases he; exact ⟨rfl, hne⟩
  · obtain ⟨e, e1, e2⟩ := r5 fs (start_winv ..)
    refine ⟨_, e, e1, ?_⟩
    rcases e2 with rfl | rfl
    · exact .inl rfl
    · cases e with
      | none => exact .inl rfl
      | some e => exact .inr rfl

theorem file_ginv (P : Prm) (f : FileIn) (g : Glob) (fs : FS) (hg : GInv P g) (he : (processFile P f g fs).err = none) : GInv P (processFile P f g fs).g := by
  rcases processFile_cases P f with ⟨o, t, l, xyz, h⟩ | ⟨err, h⟩
  · exact (file_ok P f g fs o t l xyz h hg).ginv he
  · rw [h]; exact hg

/-- every file of a run starts with correct tables -/
theorem mainLoop_at (P : Prm) (files : List FileIn) : ∀ (g : Glob) (fs : FS), GInv P g → ∀ i ops, (mainLoop P files g fs).2.2.1[i]? = some ops →
    ∃ f g' fs', files[i]? = some f ∧ GInv P g' ∧ ops = (processFile P f g' fs').ops ∧
      (i + 1 < (mainLoop P files g fs).2.2.1.length → (processFile P f g' fs').err = none) ∧
      ((mainLoop P files g fs).2.2.2 = none → (processFile P f g' fs').err = none) := by
  induction files with
  | nil => intro g fs _ i ops h; simp [mainLoop] at h
  | cons f files ih =>
    intro g fs hg i ops h
    simp only [mainLoop] at h ⊢
    cases he : (processFile P f g fs).err with
    | some e =>
      rw [he] at h
      simp only at h ⊢
      cases i with
      | zero => simp only [List.getElem?_cons_zero, Option.some.injEq] at h; exact ⟨f, g, fs, rfl, hg, h.symm, by simp, by simp⟩
      | succ i => simp at h
    | none =>
      rw [he] at h
      simp only at h ⊢
      have hg' := file_ginv P f g fs hg he
      cases i with
      | zero => simp only [List.getElem?_cons_zero, Option.some.injEq] at h; exact ⟨f, g, fs, rfl, hg, h.symm, fun _ => he, fun _ => he⟩
      | succ i =>
        simp only [List.getElem?_cons_succ] at h
        obtain ⟨f', g', fs', h1, h2, h3, h4, h5⟩ := ih _ _ hg' i ops h
        exact ⟨f', g', fs', by simpa using h1, h2, h3, by simpa using h4, h5⟩

/-! ## two runs of a file with different tables -/

structure Sim (a b : St) : Prop where
  x : a.x = b.x
  l : a.l = b.l
  nav : a.navMsg = b.navMsg
  w : a.w = b.w
  ops : a.ops = b.ops

theorem writeRecord_fs (env : WEnv) (cfg : Cfg) (i : Rat) (sat : Str) (e : DateTime) (v : List (Option FVal)) (w : Writer) (fs1 fs2 : FS) :
    (writeRecord env cfg i sat e v w fs1).w = (writeRecord env cfg i sat e v w fs2).w ∧
    (writeRecord env cfg i sat e v w fs1).err = (writeRecord env cfg i sat e v w fs2).err := by
  unfold writeRecord
  cases recordText env cfg i e v with
  | error e => exact ⟨rfl, rfl⟩
  | ok r =>
    cases r with
    | none => exact ⟨rfl, rfl⟩
    | some s =>
      simp only
      cases w.satellite.get? sat with
      | none => exact ⟨rfl, rfl⟩
      | some i =>
        simp only
        cases i.fobj <;> exact ⟨rfl, rfl⟩

theorem applyOp_fs (env : WEnv) (cfg : Cfg) (f : Str) (i : Rat) (op : WOp) (w : Writer) (fs1 fs2 : FS) :
    (applyOp env cfg f i op w fs1).w = (applyOp env cfg f i op w fs2).w ∧ (applyOp env cfg f i op w fs1).err = (applyOp env cfg f i op w fs2).err := by
  cases op with
  | satellite s d n => exact ⟨rfl, rfl⟩
  | position t p => exact ⟨rfl, rfl⟩
  | geodetic t p => exact ⟨rfl, rfl⟩
  | write sat e v =>
    simp only [applyOp]
    unfold writeData
    simp only
    cases w.satellite.get? sat with
    | none => exact ⟨rfl, rfl⟩
    | some si =>
      simp only
      cases si.fobj with
      | some g => exact writeRecord_fs ..
      | none =>
        simp only
        unfold openOut
        simp only
        cases latest (Writer.setFile _ _ _).xyz with
        | error _ => exact ⟨rfl, rfl⟩
        | ok _ =>
          simp only
          cases latest (Writer.setFile _ _ _).lbh with
          | error _ => exact ⟨rfl, rfl⟩
          | ok _ => exact writeRecord_fs ..

theorem call_sim (P : Prm) (o : ObsIn) (op : WOp) (a b : St) (h : Sim a b) : Sim (call P o op a).1 (call P o op b).1 ∧ (call P o op a).2 = (call P o op b).2 := by
  obtain ⟨h1, h2, h3, h4, h5⟩ := h
  have := applyOp_fs P.env P.cfg o.filename o.interval op b.w a.fs b.fs
  unfold call
  simp only [h4]
  exact ⟨⟨h1, h2, h3, this.1, by simp only [h5]⟩, this.2⟩

theorem navStage_sim (P : Prm) (c : Char) (d : Date) (a b : St) (h : Sim a b) :
    Sim (navStage P c d a).1 (navStage P c d b).1 ∧ (navStage P c d a).2 = (navStage P c d b).2 := by
  obtain ⟨g, x, l, nm, w, fs, ops⟩ := a
  obtain ⟨g', x', l', nm', w', fs', ops'⟩ := b
  obtain ⟨h1, h2, h3, h4, h5⟩ := h
  simp only at h1 h2 h3 h4 h5
  subst h1 h2 h3 h4 h5
  have first : ∀ (g : Glob) fs, ∃ g1, (if g.navFile.has d then (⟨g, x, l, nm, w, fs, ops⟩ : St) else
      ⟨{ g with navFile := g.navFile.set d [] }, x, l, nm, w, fs, ops⟩) = ⟨g1, x, l, nm, w, fs, ops⟩ := by
    intro g fs
    split
    · exact ⟨_, rfl⟩
    · exact ⟨_, rfl⟩
  obtain ⟨g1, e1⟩ := first g fs
  obtain ⟨g2, e2⟩ := first g' fs'
  unfold navStage
  simp only [e1, e2]
  split
  · exact ⟨⟨rfl, rfl, rfl, rfl, rfl⟩, rfl⟩
  · cases P.load d c with
    | error e =>
      simp only
      split <;> exact ⟨⟨rfl, rfl, rfl, rfl, rfl⟩, rfl⟩
    | ok fm => exact ⟨⟨rfl, rfl, rfl, rfl, rfl⟩, rfl⟩

theorem siteStage_sim (P : Prm) (o : ObsIn) (xyz : Dict DateTime Pos) (e : DateTime) (p : Pos) (a b : St) (h : Sim a b) :
    Sim (siteStage P o xyz e p a).1 (siteStage P o xyz e p b).1 ∧ (siteStage P o xyz e p a).2 = (siteStage P o xyz e p b).2 := by
  obtain ⟨g, x, l, nm, w, fs, ops⟩ := a
  obtain ⟨g', x', l', nm', w', fs', ops'⟩ := b
  obtain ⟨h1, h2, h3, h4, h5⟩ := h
  simp only at h1 h2 h3 h4 h5
  subst h1 h2 h3 h4 h5
  have tail : ∀ (a b : St), Sim a b → ∀ ra rb : St × Flow,
      ra = (match latest a.w.xyz with
        | .error er => (a, Flow.stop er)
        | .ok q => if a.x ≠ q then ((call P o (.geodetic e a.l) (call P o (.position e a.x) a).1).1, .next) else (a, .next)) →
      rb = (match latest b.w.xyz with
        | .error er => (b, Flow.stop er)
        | .ok q => if b.x ≠ q then ((call P o (.geodetic e b.l) (call P o (.position e b.x) b).1).1, .next) else (b, .next)) →
      Sim ra.1 rb.1 ∧ ra.2 = rb.2 := by
    intro a b h ra rb ha hb
    rw [← h.w, ← h.x, ← h.l] at hb
    subst ha hb
    cases latest a.w.xyz with
    | error er => exact ⟨h, rfl⟩
    | ok q =>
      simp only
      split
      · exact ⟨(call_sim P o _ _ _ (call_sim P o _ _ _ h).1).1, rfl⟩
      · exact ⟨h, rfl⟩
  unfold siteStage
  cases xyz.get? e with
  | some q =>
    simp only
    cases P.lbh q with
    | error er => exact ⟨⟨rfl, rfl, rfl, rfl, rfl⟩, rfl⟩
    | ok l' => exact tail ⟨g, q, l', nm, w, fs, ops⟩ ⟨g', q, l', nm, w, fs', ops⟩ ⟨rfl, rfl, rfl, rfl, rfl⟩ _ _ rfl rfl
  | none =>
    simp only
    by_cases hx : x ≠ p
    · simp only [if_pos hx]
      cases P.lbh p with
      | error er => exact ⟨⟨rfl, rfl, rfl, rfl, rfl⟩, rfl⟩
      | ok l' => exact tail ⟨g, p, l', nm, w, fs, ops⟩ ⟨g', p, l', nm, w, fs', ops⟩ ⟨rfl, rfl, rfl, rfl, rfl⟩ _ _ rfl rfl
    · simp only [if_neg hx]
      exact tail ⟨g, x, l, nm, w, fs, ops⟩ ⟨g', x, l, nm, w, fs', ops⟩ ⟨rfl, rfl, rfl, rfl, rfl⟩ _ _ rfl rfl

theorem emitStage_sim (P : Prm) (o : ObsIn) (it : ObsItem) (c : Char) (n : Int) (e : DateTime) (a b : St) (h : Sim a b)
    (h1 : a.g.satXyz.get? (c, n, e) = b.g.satXyz.get? (c, n, e))
    (h2 : ∀ p, b.g.satXyz.get? (c, n, e) = some (some p) → c = 'R' → a.g.gloFreq.get? (n, e) = b.g.gloFreq.get? (n, e))
    (h3 : ∃ r r' v, a.g.navFile.get? e.date = some r ∧ b.g.navFile.get? e.date = some r' ∧ r.get? c = some v ∧ r'.get? c = some v) :
    Sim (emitStage P o it c n e.date e a).1 (emitStage P o it c n e.date e b).1 ∧ (emitStage P o it c n e.date e a).2 = (emitStage P o it c n e.date e b).2 := by
  obtain ⟨r, r', v, n1, n2, n3, n4⟩ := h3
  unfold emitStage
  rw [h1]
  cases hc : b.g.satXyz.get? (c, n, e) with
  | none => exact ⟨h, rfl⟩
  | some cached =>
    simp only
    rw [h.x, h.l]
    cases ha : angles P c b.x cached with
    | error er => exact ⟨h, rfl⟩
    | ok q =>
      cases q with
      | none => exact ⟨h, rfl⟩
      | some q =>
        obtain ⟨sp, el, az⟩ := q
        simp only
        have hfe : (if c = 'R' then a.g.gloFreq.get? (n, e) else some (0, 0, 0)) = (if c = 'R' then b.g.gloFreq.get? (n, e) else some (0, 0, 0)) := by
          by_cases hR : c = 'R'
          · simp only [hR, if_true]
            cases cached with
            | some p => exact h2 p hc hR
            | none =>
              unfold angles at ha
              simp only [hR, if_true] at ha
              split at ha <;> cases ha
          · simp only [hR, if_false]
        rw [hfe]
        cases (if c = 'R' then b.g.gloFreq.get? (n, e) else some (0, 0, 0)) with
        | none => exact ⟨h, rfl⟩
        | some q =>
          obtain ⟨f1, f2, k⟩ := q
          simp only
          cases values P it c (f1, f2) el az sp b.x b.l with
          | error er => exact ⟨h, rfl⟩
          | ok q =>
            cases q with
            | none => exact ⟨h, rfl⟩
            | some vals =>
              simp only
              unfold outStage
              simp only [h.w, n1, n2, n3, n4]
              split
              · exact ⟨h, rfl⟩
              · split
                · exact call_sim P o _ _ _ h
                · exact call_sim P o _ _ _ (call_sim P o _ _ _ h).1

theorem process_sim (P : Prm) (o : ObsIn) (xyz : Dict DateTime Pos) (it : ObsItem) (c : Char) (n : Int) (e : DateTime) (a b : St) (h : Sim a b)
    (ha : SInv P e.date a) (hb : SInv P e.date b) (hgood : posFlow P c n e ≠ .skip) :
    Sim (process P o xyz it c n e a).1 (process P o xyz it c n e b).1 ∧ (process P o xyz it c n e a).2 = (process P o xyz it c n e b).2 := by
  unfold process
  obtain ⟨n1, n2⟩ := navStage_sim P c e.date a b h
  obtain ⟨nfa, nma, a1, a2, a3⟩ := navStage_spec P e.date c a ha
  obtain ⟨nfb, nmb, b1, b2, b3⟩ := navStage_spec P e.date c b hb
  have hma : (navStage P c e.date a).1.navMsg = nma := by rw [a1]
  have hmb : (navStage P c e.date b).1.navMsg = nmb := by rw [b1]
  simp only
  generalize navStage P c e.date a = A at *
  generalize navStage P c e.date b = B at *
  obtain ⟨sa, fa⟩ := A
  obtain ⟨sb, fb⟩ := B
  simp only at n1 n2 a3 b3 hma hmb ⊢
  subst n2
  clear a1 a2 b1 b2
  cases fa with
  | stop er => exact ⟨n1, rfl⟩
  | skip => exact ⟨n1, rfl⟩
  | next =>
    simp only
    obtain ⟨ia, ja, -⟩ := a3 (by simp)
    obtain ⟨ib, jb, -⟩ := b3 (by simp)
    rw [← hma] at ja
    rw [← hmb] at jb
    obtain ⟨sxa, gfa, p1, p2, p3⟩ := posStage_spec P c n e sa ia ja
    obtain ⟨sxb, gfb, q1, q2, q3⟩ := posStage_spec P c n e sb ib jb
    have flow : ∀ (s : St), SInv P e.date s → (if s.g.satXyz.has (c, n, e) then Flow.next else posFlow P c n e) = posFlow P c n e := by
      intro s hs
      split
      · rename_i hh
        obtain ⟨v, hv⟩ := Option.isSome_iff_exists.1 hh
        have := (hs.g.pos _ _ _ _ hv).2
        cases hp : posFlow P c n e with
        | next => rfl
        | skip => exact absurd hp hgood
        | stop er => exact absurd hp (this er)
      · rfl
    rw [flow _ ia] at p2
    rw [flow _ ib] at q2
    have sim : Sim (posStage P c n e sa).1 (posStage P c n e sb).1 := by
      rw [p1, q1]; exact ⟨n1.x, n1.l, n1.nav, n1.w, n1.ops⟩
    have hxa : (posStage P c n e sa).1.g.satXyz = sxa := by rw [p1]
    have hxb : (posStage P c n e sb).1.g.satXyz = sxb := by rw [q1]
    have hfa : (posStage P c n e sa).1.g.gloFreq = gfa := by rw [p1]
    have hfb : (posStage P c n e sb).1.g.gloFreq = gfb := by rw [q1]
    have hna : (posStage P c n e sa).1.navMsg.get? c = some (tableOf P e.date c) := by rw [p1]; exact ja
    have hnb : (posStage P c n e sb).1.navMsg.get? c = some (tableOf P e.date c) := by rw [q1]; exact jb
    generalize posStage P c n e sa = A at *
    generalize posStage P c n e sb = B at *
    obtain ⟨ta, ga⟩ := A
    obtain ⟨tb, gb⟩ := B
    simp only at p2 q2 p3 q3 sim hxa hxb hfa hfb hna hnb ⊢
    subst p2 q2
    clear p1 q1
    cases hp : posFlow P c n e with
    | stop er => exact ⟨sim, rfl⟩
    | skip => exact absurd hp hgood
    | next =>
      simp only
      rw [hp] at p3 q3
      obtain ⟨ka, la, ma⟩ := p3 (by simp)
      obtain ⟨kb, lb, mb⟩ := q3 (by simp)
      obtain ⟨u1, u2⟩ := siteStage_sim P o xyz e it.xyz ta tb sim
      obtain ⟨-, s2a, s3a, -, s5a, -, -⟩ := siteStage_spec P o xyz it e.date e ta ka
      obtain ⟨-, s2b, s3b, -, s5b, -, -⟩ := siteStage_spec P o xyz it e.date e tb kb
      generalize siteStage P o xyz e it.xyz ta = A at *
      generalize siteStage P o xyz e it.xyz tb = B at *
      obtain ⟨va, ha'⟩ := A
      obtain ⟨vb, hb'⟩ := B
      simp only at u1 u2 s2a s2b s3a s3b s5a s5b ⊢
      subst u2
      cases ha' with
      | skip => exact ⟨u1, rfl⟩
      | stop er => exact ⟨u1, rfl⟩
      | next =>
        simp only
        obtain ⟨k1, -⟩ := s5a rfl
        obtain ⟨k2, -⟩ := s5b rfl
        refine emitStage_sim P o it c n e va vb u1 ?_ ?_ ?_
        · rw [s2a, s2b, hxa, hxb, la, lb]
        · intro p h1 h2
          rw [s2a, s2b, hfa, hfb]
          rw [s2b, hxb] at h1
          rw [mb p h1 h2]
          exact ma p (by rw [la, ← lb]; exact h1) h2
        · obtain ⟨-, r, w1, w2⟩ := k1.nav c _ (by rw [s3a]; exact hna)
          obtain ⟨-, r', w3, w4⟩ := k2.nav c _ (by rw [s3b]; exact hnb)
          exact ⟨r, r', _, w1, w3, w2, w4⟩

theorem runItems_sim (P : Prm) (o : ObsIn) (sampling : Option Int) (xyz : Dict DateTime Pos) (items : List ObsItem)
    (good : ∀ it ∈ items, ∀ c n e, Considered o it c n e → ¬ ArithError P c n e) :
    ∀ last a b, Sim a b → SInv P (dayOf o) a → SInv P (dayOf o) b →
      Sim (runItems P o sampling xyz items last a).1 (runItems P o sampling xyz items last b).1 ∧
      (runItems P o sampling xyz items last a).2 = (runItems P o sampling xyz items last b).2 := by
  induction items with
  | nil => intro last a b h _ _; exact ⟨h, rfl⟩
  | cons it its ih =>
    intro last a b h ha hb
    have ih := ih (fun it' hi => good it' (by simp [hi]))
    simp only [runItems]
    cases had : admit o sampling last it with
    | error er => exact ⟨h, rfl⟩
    | ok q =>
      cases q with
      | none => exact ih last a b h ha hb
      | some q =>
        obtain ⟨c, n, e, last'⟩ := q
        simp only
        obtain ⟨hc, -⟩ := (admit_some ..).1 had
        have hng : posFlow P c n e ≠ .skip := fun hs => good it (by simp) c n e hc ((arith_iff ..).2 hs)
        rw [dayOf_considered hc] at ha hb
        obtain ⟨s1, s2⟩ := process_sim P o xyz it c n e a b h ha hb hng
        have pa := (process_spec P o xyz it c n e a ha).inv
        have pb := (process_spec P o xyz it c n e b hb).inv
        generalize process P o xyz it c n e a = A at *
        generalize process P o xyz it c n e b = B at *
        obtain ⟨ta, ea⟩ := A
        obtain ⟨tb, eb⟩ := B
        simp only at s1 s2 pa pb ⊢
        subst s2
        cases ea with
        | some er => exact ⟨s1, rfl⟩
        | none =>
          simp only
          exact ih last' ta tb s1 (by rw [dayOf_considered hc]; exact pa rfl) (by rw [dayOf_considered hc]; exact pb rfl)

end Verif.Proofs
