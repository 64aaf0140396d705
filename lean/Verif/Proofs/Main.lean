import Verif.Spec.Main
/-!
# Proofs: the main loop
-/
namespace Verif.Proofs
open Verif.Py Verif.Model Verif.Spec

def tableOf (P : Prm) (d : Date) (c : Char) : Eph := match P.load d c with | .ok (_, m) => m | .error _ => []
def fileOf (P : Prm) (d : Date) (c : Char) : Option Str := match P.load d c with | .ok (f, _) => some f | .error _ => none

def selOf (P : Prm) (c : Char) (n : Int) (e : DateTime) : Except PyErr (Option (Rat × List PyFloat)) :=
  selectMessage e c n [(c, tableOf P e.date c)] true

/-- the outcome of the position stage for a satellite not in the cache -/
def posFlow (P : Prm) (c : Char) (n : Int) (e : DateTime) : Flow :=
  match selOf P c n e with
  | .error er => .stop er
  | .ok none => .next
  | .ok (some (dt, eph)) =>
    match P.satPos c eph dt with
    | .error er => if er ∈ arithmetic then .skip else .stop er
    | .ok _ =>
      if c = 'R' then
        match (eph[7]? : Option PyFloat) with
        | none => .stop .index
        | some (.fin _) => .next
        | some _ => .stop .exc
      else .next

def posOf (P : Prm) (c : Char) (n : Int) (e : DateTime) : Option Pos :=
  match selOf P c n e with
  | .ok (some (dt, eph)) => match P.satPos c eph dt with | .ok p => some p | .error _ => none
  | _ => none

def freqOf (P : Prm) (n : Int) (e : DateTime) : Option (Rat × Rat × Rat) :=
  match selOf P 'R' n e with
  | .ok (some (_, eph)) => match (eph[7]? : Option PyFloat) with | some (.fin k) => some (gloF1 k, gloF2 k, k) | _ => none
  | _ => none

theorem select_congr (e : DateTime) (c : Char) (n : Int) (m1 m2 : NavTable) (b : Bool) (h : m1.get? c = m2.get? c) :
    selectMessage e c n m1 b = selectMessage e c n m2 b := by
  unfold selectMessage
  rw [h]

/-- the shared tables hold what would be computed -/
structure GInv (P : Prm) (g : Glob) : Prop where
  pos : ∀ c n e v, g.satXyz.get? (c, n, e) = some v → v = posOf P c n e ∧ ∀ er, posFlow P c n e ≠ .stop er
  freq : ∀ n e p, g.satXyz.get? ('R', n, e) = some (some p) → ∃ q, g.gloFreq.get? (n, e) = some q
  freqS : ∀ n e q, g.gloFreq.get? (n, e) = some q → freqOf P n e = some q

structure SInv (P : Prm) (d : Date) (s : St) : Prop where
  g : GInv P s.g
  nav : ∀ c m, s.navMsg.get? c = some m → m = tableOf P d c ∧ ∃ row, s.g.navFile.get? d = some row ∧ row.get? c = some (fileOf P d c)
  lbh : P.lbh s.x = .ok s.l
  lat : (∃ p, latest s.w.xyz = .ok p) ∧ ∃ p, latest s.w.lbh = .ok p

theorem ginv_empty (P : Prm) : GInv P Glob.empty := by
  constructor
  · intro c n e v h; cases h
  · intro n e p h; cases h
  · intro n e q h; cases h

/-! ## navigation -/

def navFlow (P : Prm) (d : Date) (c : Char) (seen : Bool) : Flow :=
  if seen then .next
  else match P.load d c with
    | .error e => if e = .rinex ∨ e = .nm then .skip else .stop e
    | .ok _ => .next

theorem navStage_spec (P : Prm) (d : Date) (c : Char) (s : St) (h : SInv P d s) :
    ∃ nf nm, (navStage P c d s).1 = { s with g := { s.g with navFile := nf }, navMsg := nm } ∧
      (navStage P c d s).2 = navFlow P d c (s.navMsg.has c) ∧
      ((∀ er, (navStage P c d s).2 ≠ .stop er) → SInv P d (navStage P c d s).1 ∧ nm.get? c = some (tableOf P d c) ∧
        nm = if s.navMsg.has c then s.navMsg else s.navMsg.set c (tableOf P d c)) := by
  obtain ⟨g, x, l, nm0, w, fs, ops⟩ := s
  obtain ⟨nf0, sx, gf⟩ := g
  obtain ⟨hg, hn, hl, ht⟩ := h
  simp only at hg hn hl ht
  have hg' : ∀ nf, GInv P ⟨nf, sx, gf⟩ := fun nf => ⟨hg.pos, hg.freq, hg.freqS⟩
  unfold navStage
  -- first assignment
  have first : ∃ nf1, (if nf0.has d then (⟨⟨nf0, sx, gf⟩, x, l, nm0, w, fs, ops⟩ : St) else
      ⟨⟨nf0.set d [], sx, gf⟩, x, l, nm0, w, fs, ops⟩) = ⟨⟨nf1, sx, gf⟩, x, l, nm0, w, fs, ops⟩ ∧ (∃ row, nf1.get? d = some row) ∧
      ∀ row, nf0.get? d = some row → nf1.get? d = some row := by
    by_cases hh : nf0.has d
    · rw [if_pos hh]
      exact ⟨nf0, rfl, Option.isSome_iff_exists.1 hh, fun _ h => h⟩
    · rw [if_neg hh]
      refine ⟨_, rfl, ⟨[], by rw [Dict.get?_set]; simp⟩, ?_⟩
      intro row hr
      exact absurd (by unfold Dict.has; rw [hr]; rfl) hh
  obtain ⟨nf1, e1, ⟨row, hrow⟩, hkeep⟩ := first
  simp only [e1]
  by_cases hc : nm0.has c
  · simp only [hc, if_true]
    refine ⟨nf1, nm0, rfl, by simp [navFlow], ?_⟩
    intro _
    refine ⟨⟨hg' _, ?_, hl, ht⟩, ?_, rfl⟩
    · intro c' m hm
      obtain ⟨a, row', b1, b2⟩ := hn c' m hm
      exact ⟨a, row', hkeep _ b1, b2⟩
    · obtain ⟨m, hm⟩ := Option.isSome_iff_exists.1 hc
      rw [hm, (hn c m hm).1]
  · simp only [hc, if_false, Bool.false_eq_true]
    -- row after assignments
    have rowc : ∀ (nf : Dict Date (Dict Char (Option Str))) v, (Glob.setNav ⟨nf, sx, gf⟩ d c v) = ⟨nf.set d (((nf.get? d).getD []).set c v), sx, gf⟩ := fun _ _ => rfl
    have inv : ∀ (nf : Dict Date (Dict Char (Option Str))) nm, (∃ r, nf.get? d = some r ∧ r.get? c = some (fileOf P d c) ∧ ∀ c', c ≠ c' → r.get? c' = row.get? c') →
        (nm.get? c = some (tableOf P d c)) → (∀ c', c ≠ c' → nm.get? c' = nm0.get? c') →
        SInv P d ⟨⟨nf, sx, gf⟩, x, l, nm, w, fs, ops⟩ := by
      intro nf nm ⟨r, r1, r2, r3⟩ n1 n2
      refine ⟨hg' _, ?_, hl, ht⟩
      intro c' m hm
      by_cases hcc : c = c'
      · subst hcc
        rw [n1] at hm; cases hm
        exact ⟨rfl, r, r1, r2⟩
      · rw [n2 c' hcc] at hm
        obtain ⟨a, row', b1, b2⟩ := hn c' m hm
        have : row' = row := Option.some.inj ((hkeep _ b1).symm.trans hrow)
        subst this
        exact ⟨a, r, r1, by rw [r3 c' hcc]; exact b2⟩
    cases hload : P.load d c with
    | error e =>
      have ht : tableOf P d c = [] := by unfold tableOf; rw [hload]
      have hf : fileOf P d c = none := by unfold fileOf; rw [hload]
      by_cases he : e = .rinex ∨ e = .nm
      · simp only [he, if_true]
        refine ⟨_, _, rfl, by simp [navFlow, hload, he], ?_⟩
        intro _
        refine ⟨inv _ _ ⟨row.set c none, ?_, ?_, ?_⟩ ?_ ?_, ?_, ?_⟩
        · simp [Dict.get?_set, hrow]
        · simp [Dict.get?_set, hf]
        · intro c' h'; simp [Dict.get?_set, h']
        · simp [Dict.get?_set, ht]
        · intro c' h'; simp [Dict.get?_set, h']
        · simp [Dict.get?_set, ht]
        · simp [ht]
      · simp only [he, if_false]
        refine ⟨_, _, rfl, by simp [navFlow, hload, he], ?_⟩
        intro h; exact absurd rfl (h e)
    | ok fm =>
      obtain ⟨f, m⟩ := fm
      have ht : tableOf P d c = m := by unfold tableOf; rw [hload]
      have hf : fileOf P d c = some f := by unfold fileOf; rw [hload]
      simp only
      refine ⟨_, _, rfl, by simp [navFlow, hload], ?_⟩
      intro _
      have hset : ∀ (D : NavTable), (D.set c []).set c m = D.set c m := by
        intro D
        induction D with
        | nil => simp [Dict.set]
        | cons p D ih =>
          obtain ⟨k, v⟩ := p
          simp only [Dict.set]
          by_cases hk : k = c
          · simp [hk, Dict.set]
          · simp only [hk, if_false, Dict.set, ih]
      refine ⟨inv _ _ ⟨((row.set c none).set c (some f)), ?_, ?_, ?_⟩ ?_ ?_, ?_, ?_⟩
      · simp [Glob.setNav, Dict.get?_set, hrow]
      · simp [Dict.get?_set, hf]
      · intro c' h'; simp [Dict.get?_set, h']
      · simp [Dict.get?_set, ht]
      · intro c' h'; simp [Dict.get?_set, h']
      · simp [Dict.get?_set, ht]
      · rw [ht]; exact hset _

/-! ## satellite position -/

theorem posStage_spec (P : Prm) (c : Char) (n : Int) (e : DateTime) (s : St) (h : SInv P e.date s) (hn : s.navMsg.get? c = some (tableOf P e.date c)) :
    ∃ sx gf, (posStage P c n e s).1 = { s with g := { s.g with satXyz := sx, gloFreq := gf } } ∧
      (posStage P c n e s).2 = (if s.g.satXyz.has (c, n, e) then .next else posFlow P c n e) ∧
      ((∀ er, (posStage P c n e s).2 ≠ .stop er) → SInv P e.date (posStage P c n e s).1 ∧ sx.get? (c, n, e) = some (posOf P c n e) ∧
        (∀ p, sx.get? (c, n, e) = some (some p) → c = 'R' → gf.get? (n, e) = freqOf P n e)) := by
  obtain ⟨g, x, l, nm0, w, fs, ops⟩ := s
  obtain ⟨nf, sx, gf⟩ := g
  obtain ⟨hg, hnv, hl, ht⟩ := h
  simp only at hg hn hnv hl ht
  have hsel : selectMessage e c n nm0 true = selOf P c n e := by
    unfold selOf
    apply select_congr
    rw [hn]; simp [Dict.get?]
  unfold posStage
  by_cases hc : sx.has (c, n, e)
  · simp only [hc, if_true]
    refine ⟨sx, gf, rfl, trivial, fun _ => ⟨⟨hg, hnv, hl, ht⟩, ?_, ?_⟩⟩
    · obtain ⟨v, hv⟩ := Option.isSome_iff_exists.1 hc
      rw [hv, (hg.pos _ _ _ _ hv).1]
    · intro p hp hcR
      subst hcR
      obtain ⟨q, hq⟩ := hg.freq _ _ _ hp
      rw [hq, hg.freqS _ _ _ hq]
  · simp only [hc, if_false, Bool.false_eq_true, hsel]
    have hnone : sx.get? (c, n, e) = none := by
      cases hh : sx.get? (c, n, e) with
      | none => rfl
      | some v => exact absurd (by unfold Dict.has; rw [hh]; rfl) hc
    -- invariant after storing v without frequency
    have inv0 : posOf P c n e = none → (∀ er, posFlow P c n e ≠ .stop er) → GInv P ⟨nf, sx.set (c, n, e) none, gf⟩ := by
      intro h0 h1
      refine ⟨?_, ?_, hg.freqS⟩
      · intro c' n' e' v hv
        simp only [Dict.get?_set] at hv
        split at hv
        · rename_i heq
          simp only [Prod.mk.injEq] at heq
          obtain ⟨rfl, rfl, rfl⟩ := heq
          cases hv
          exact ⟨h0.symm, h1⟩
        · exact hg.pos _ _ _ _ hv
      · intro n' e' p hp
        simp only [Dict.get?_set] at hp
        split at hp
        · cases hp
        · exact hg.freq _ _ _ hp
    have upd : ∀ D v, ((D : Dict (Char × Int × DateTime) (Option Pos)).set (c, n, e) none).set (c, n, e) v = D.set (c, n, e) v := by
      intro D v
      induction D with
      | nil => simp [Dict.set]
      | cons p D ih =>
        obtain ⟨k, u⟩ := p
        simp only [Dict.set]
        by_cases hk : k = (c, n, e)
        · simp [hk, Dict.set]
        · simp only [hk, if_false, Dict.set, ih]
    cases hs : selOf P c n e with
    | error er =>
      simp only
      refine ⟨_, _, rfl, by simp [posFlow, hs], fun h => absurd rfl (h er)⟩
    | ok r =>
      cases r with
      | none =>
        have hp : posOf P c n e = none := by unfold posOf; rw [hs]
        have hf : posFlow P c n e = .next := by unfold posFlow; rw [hs]
        simp only
        refine ⟨_, _, rfl, hf.symm, fun _ => ⟨⟨inv0 hp (by rw [hf]; simp), hnv, hl, ht⟩, ?_, ?_⟩⟩
        · simp [Dict.get?_set, hp]
        · intro p hp'; simp [Dict.get?_set] at hp'
      | some de =>
        obtain ⟨dt, eph⟩ := de
        simp only
        cases hsp : P.satPos c eph dt with
        | error er =>
          have hp : posOf P c n e = none := by unfold posOf; rw [hs]; simp [hsp]
          simp only
          by_cases hm : er ∈ arithmetic
          · have hf : posFlow P c n e = .skip := by unfold posFlow; rw [hs]; simp [hsp, hm]
            simp only [hm, if_true]
            refine ⟨_, _, rfl, hf.symm, fun _ => ⟨⟨inv0 hp (by rw [hf]; simp), hnv, hl, ht⟩, ?_, ?_⟩⟩
            · simp [Dict.get?_set, hp]
            · intro p hp'; simp [Dict.get?_set] at hp'
          · have hf : posFlow P c n e = .stop er := by unfold posFlow; rw [hs]; simp [hsp, hm]
            simp only [hm, if_false]
            exact ⟨_, _, rfl, hf.symm, fun h => absurd rfl (h er)⟩
        | ok p =>
          have hp : posOf P c n e = some p := by unfold posOf; rw [hs]; simp [hsp]
          simp only [upd]
          by_cases hR : c = 'R'
          · subst hR
            simp only [if_true]
            cases h7 : (eph[7]? : Option PyFloat) with
            | none =>
              have hf : posFlow P 'R' n e = .stop .index := by unfold posFlow; rw [hs]; simp [hsp, h7]
              simp only
              exact ⟨_, _, rfl, hf.symm, fun h => absurd rfl (h _)⟩
            | some k =>
              cases k with
              | fin k =>
                have hf : posFlow P 'R' n e = .next := by unfold posFlow; rw [hs]; simp [hsp, h7]
                have hq : freqOf P n e = some (gloF1 k, gloF2 k, k) := by unfold freqOf; rw [hs]; simp [h7]
                have invR : ∀ gf', (∃ q, gf'.get? (n, e) = some q) → (∀ n' e' q, gf'.get? (n', e') = some q → freqOf P n' e' = some q) →
                    (∀ n' e' q, gf.get? (n', e') = some q → ∃ q, gf'.get? (n', e') = some q) → GInv P ⟨nf, sx.set ('R', n, e) (some p), gf'⟩ := by
                  intro gf' h1 h2 h3
                  refine ⟨?_, ?_, h2⟩
                  · intro c' n' e' v hv
                    simp only [Dict.get?_set] at hv
                    split at hv
                    · rename_i heq
                      simp only [Prod.mk.injEq] at heq
                      obtain ⟨rfl, rfl, rfl⟩ := heq
                      cases hv
                      exact ⟨hp.symm, by rw [hf]; simp⟩
                    · exact hg.pos _ _ _ _ hv
                  · intro n' e' p' hp'
                    simp only [Dict.get?_set] at hp'
                    split at hp'
                    · rename_i heq
                      simp only [Prod.mk.injEq, true_and] at heq
                      obtain ⟨rfl, rfl⟩ := heq
                      exact h1
                    · obtain ⟨q, hq⟩ := hg.freq _ _ _ hp'
                      exact h3 _ _ _ hq
                simp only
                by_cases hgf : gf.has (n, e)
                · simp only [hgf, if_true]
                  obtain ⟨q, hq'⟩ := Option.isSome_iff_exists.1 hgf
                  refine ⟨_, _, rfl, hf.symm, fun _ => ⟨⟨invR gf ⟨q, hq'⟩ hg.freqS (fun _ _ q h => ⟨q, h⟩), hnv, hl, ht⟩, ?_, ?_⟩⟩
                  · simp [Dict.get?_set, hp]
                  · intro p' _ _
                    rw [hq', hg.freqS _ _ _ hq']
                · simp only [hgf, if_false, Bool.false_eq_true]
                  refine ⟨_, _, rfl, hf.symm, fun _ => ⟨⟨invR _ ⟨_, by rw [Dict.get?_set, if_pos rfl]⟩ ?_ ?_, hnv, hl, ht⟩, ?_, ?_⟩⟩
                  · intro n' e' q h'
                    simp only [Dict.get?_set] at h'
                    split at h'
                    · rename_i heq
                      simp only [Prod.mk.injEq] at heq
                      obtain ⟨rfl, rfl⟩ := heq
                      rw [hq]; exact h'
                    · exact hg.freqS _ _ _ h'
                  · intro n' e' q h'
                    rw [Dict.get?_set]
                    split
                    · exact ⟨_, rfl⟩
                    · exact ⟨q, h'⟩
                  · simp [Dict.get?_set, hp]
                  · intro p' _ _
                    rw [Dict.get?_set, if_pos rfl, hq]
              | _ =>
                have hf : posFlow P 'R' n e = .stop .exc := by unfold posFlow; rw [hs]; simp [hsp, h7]
                simp only
                exact ⟨_, _, rfl, hf.symm, fun h => absurd rfl (h _)⟩
          · have hf : posFlow P c n e = .next := by unfold posFlow; rw [hs]; simp [hsp, hR]
            simp only [hR, if_false]
            refine ⟨_, _, rfl, hf.symm, fun _ => ⟨⟨⟨?_, ?_, hg.freqS⟩, hnv, hl, ht⟩, ?_, ?_⟩⟩
            · intro c' n' e' v hv
              simp only [Dict.get?_set] at hv
              split at hv
              · rename_i heq
                simp only [Prod.mk.injEq] at heq
                obtain ⟨rfl, rfl, rfl⟩ := heq
                cases hv
                exact ⟨hp.symm, by rw [hf]; simp⟩
              · exact hg.pos _ _ _ _ hv
            · intro n' e' p' hp'
              simp only [Dict.get?_set] at hp'
              split at hp'
              · rename_i heq
                simp only [Prod.mk.injEq] at heq
                exact absurd heq.1 hR
              · exact hg.freq _ _ _ hp'
            · simp [Dict.get?_set, hp]
            · intro p' _ hcR
              exact absurd hcR (by simp)

/-! ## site -/

theorem writesOf_append (a b : List WOp) : writesOf (a ++ b) = writesOf a ++ writesOf b := by
  induction a with
  | nil => rfl
  | cons o a ih => cases o <;> simp [writesOf, ih]

theorem latest_set (d : Dict DateTime Pos) (t : DateTime) (p : Pos) : ∃ q, latest (d.set t p) = .ok q := by
  unfold latest
  have hk : (d.set t p).keys ≠ [] := by
    intro h
    have := (Dict.mem_keys_set d t t p).2 (.inl rfl)
    rw [h] at this; cases this
  have lk : ∀ L : List DateTime, L ≠ [] → ∃ u, latestKey L = some u ∧ u ∈ L := by
    intro L hL
    induction L with
    | nil => exact absurd rfl hL
    | cons a L ih =>
      simp only [latestKey]
      cases L with
      | nil => exact ⟨a, rfl, by simp⟩
      | cons b L =>
        obtain ⟨u, h1, h2⟩ := ih (by simp)
        rw [h1]
        simp only
        split
        · exact ⟨a, rfl, by simp⟩
        · exact ⟨u, rfl, List.mem_cons_of_mem _ h2⟩
  obtain ⟨u, h1, h2⟩ := lk _ hk
  rw [h1]
  simp only
  obtain ⟨v, hv⟩ := Option.isSome_iff_exists.1 ((Dict.get?_isSome_iff _ _).2 h2)
  rw [hv]
  exact ⟨v, rfl⟩

def siteOf (xyz : Dict DateTime Pos) (it : ObsItem) (e : DateTime) : Pos := (xyz.get? e).getD it.xyz

/-- the calls so far explain the state of the writer -/
def WInv (P : Prm) (o : ObsIn) (fs0 : FS) (s : St) : Prop := runOps P.env P.cfg o.filename o.interval s.ops Writer.new fs0 = ⟨s.w, s.fs, none⟩

theorem runOps_snoc (env : WEnv) (cfg : Cfg) (f : Str) (i : Rat) (ops : List WOp) (op : WOp) (w : Writer) (fs : FS)
    (h : (runOps env cfg f i ops w fs).err = none) :
    runOps env cfg f i (ops ++ [op]) w fs = applyOp env cfg f i op (runOps env cfg f i ops w fs).w (runOps env cfg f i ops w fs).fs := by
  induction ops generalizing w fs with
  | nil =>
    simp only [List.nil_append, runOps]
    generalize applyOp env cfg f i op w fs = r
    obtain ⟨a, b, c⟩ := r
    cases c <;> rfl
  | cons o ops ih =>
    simp only [List.cons_append, runOps] at h ⊢
    cases he : (applyOp env cfg f i o w fs).err with
    | some e => rw [he] at h; cases h
    | none =>
      simp only [he] at h ⊢
      exact ih _ _ h

theorem call_winv (P : Prm) (o : ObsIn) (fs0 : FS) (op : WOp) (s : St) (h : WInv P o fs0 s) :
    runOps P.env P.cfg o.filename o.interval (call P o op s).1.ops Writer.new fs0 = ⟨(call P o op s).1.w, (call P o op s).1.fs, (call P o op s).2⟩ := by
  unfold WInv at h
  unfold call
  simp only
  rw [runOps_snoc _ _ _ _ _ _ _ _ (by rw [h]), h]

def siteFlow (P : Prm) (xyz : Dict DateTime Pos) (it : ObsItem) (e : DateTime) : Flow :=
  match P.lbh (siteOf xyz it e) with
  | .ok _ => .next
  | .error er => .stop er

theorem siteStage_spec (P : Prm) (o : ObsIn) (xyz : Dict DateTime Pos) (it : ObsItem) (d : Date) (e : DateTime) (s : St) (h : SInv P d s) :
    (siteStage P o xyz e it.xyz s).2 = siteFlow P xyz it e ∧ (siteStage P o xyz e it.xyz s).1.g = s.g ∧
      (siteStage P o xyz e it.xyz s).1.navMsg = s.navMsg ∧
      (∃ new, (siteStage P o xyz e it.xyz s).1.ops = s.ops ++ new ∧ writesOf new = []) ∧
      ((siteStage P o xyz e it.xyz s).2 = .next → SInv P d (siteStage P o xyz e it.xyz s).1 ∧ (siteStage P o xyz e it.xyz s).1.x = siteOf xyz it e) ∧
      (siteStage P o xyz e it.xyz s).1.w.satellite = s.w.satellite ∧
      ∀ fs0, WInv P o fs0 s → WInv P o fs0 (siteStage P o xyz e it.xyz s).1 := by
  obtain ⟨g, x, l, nm, w, fs, ops⟩ := s
  obtain ⟨hg, hn, hl, lat⟩ := h
  simp only at hg hn hl lat
  -- the end of the stage, for any new position
  have fin : ∀ (p l' : Pos), P.lbh p = .ok l' → ∀ r : St × Flow,
      r = (match latest w.xyz with
        | .error er => ((⟨g, p, l', nm, w, fs, ops⟩ : St), Flow.stop er)
        | .ok q => if p ≠ q then ((call P o (.geodetic e l') (call P o (.position e p) ⟨g, p, l', nm, w, fs, ops⟩).1).1, .next)
          else (⟨g, p, l', nm, w, fs, ops⟩, .next)) →
      r.2 = .next ∧ r.1.g = g ∧ r.1.navMsg = nm ∧ (∃ new, r.1.ops = ops ++ new ∧ writesOf new = []) ∧ SInv P d r.1 ∧ r.1.x = p ∧
        r.1.w.satellite = w.satellite ∧ ∀ fs0, WInv P o fs0 ⟨g, x, l, nm, w, fs, ops⟩ → WInv P o fs0 r.1 := by
    intro p l' hp r hr
    obtain ⟨⟨q, hq⟩, lat2⟩ := lat
    rw [hq] at hr
    simp only at hr
    split at hr
    · subst hr
      refine ⟨rfl, rfl, rfl, ⟨[.position e p, .geodetic e l'], ?_, rfl⟩, ⟨hg, hn, hp, ?_⟩, rfl, rfl, ?_⟩
      · simp [call]
      · simp only [call, applyOp, Writer.updateXyz, Writer.updateLbh]
        exact ⟨latest_set _ _ _, latest_set _ _ _⟩
      · intro fs0 hw
        have h1 := call_winv P o fs0 (.position e p) ⟨g, p, l', nm, w, fs, ops⟩ hw
        have h2 := call_winv P o fs0 (.geodetic e l') _ h1
        exact h2
    · subst hr
      exact ⟨rfl, rfl, rfl, ⟨[], by simp, rfl⟩, ⟨hg, hn, hp, ⟨q, hq⟩, lat2⟩, rfl, rfl, fun _ hw => hw⟩
  have key : ∀ (p : Pos), p = siteOf xyz it e → ∀ r : St × Flow,
      (r = match P.lbh p with
        | .error er => ((⟨g, p, l, nm, w, fs, ops⟩ : St), Flow.stop er)
        | .ok l' => (match latest w.xyz with
          | .error er => ((⟨g, p, l', nm, w, fs, ops⟩ : St), Flow.stop er)
          | .ok q => if p ≠ q then ((call P o (.geodetic e l') (call P o (.position e p) ⟨g, p, l', nm, w, fs, ops⟩).1).1, .next)
            else (⟨g, p, l', nm, w, fs, ops⟩, .next))) →
      r.2 = siteFlow P xyz it e ∧ r.1.g = g ∧ r.1.navMsg = nm ∧ (∃ new, r.1.ops = ops ++ new ∧ writesOf new = []) ∧
        (r.2 = .next → SInv P d r.1 ∧ r.1.x = siteOf xyz it e) ∧
        r.1.w.satellite = w.satellite ∧ ∀ fs0, WInv P o fs0 ⟨g, x, l, nm, w, fs, ops⟩ → WInv P o fs0 r.1 := by
    intro p hp r hr
    unfold siteFlow
    rw [← hp]
    cases hb : P.lbh p with
    | error er =>
      rw [hb] at hr
      subst hr
      exact ⟨rfl, rfl, rfl, ⟨[], by simp, rfl⟩, (by intro h; cases h), rfl, fun _ hw => hw⟩
    | ok l' =>
      rw [hb] at hr
      obtain ⟨a1, a2, a3, a4, a5, a6, a7, a8⟩ := fin p l' hb r hr
      exact ⟨a1, a2, a3, a4, fun _ => ⟨a5, a6⟩, a7, a8⟩
  unfold siteStage
  cases hx : xyz.get? e with
  | some p =>
    apply key p (by simp [siteOf, hx])
    obtain ⟨⟨q, hq⟩, lat2⟩ := lat
    cases hb : P.lbh p <;> simp only [hb, hq]
  | none =>
    have hs : it.xyz = siteOf xyz it e := by simp [siteOf, hx]
    apply key it.xyz hs
    obtain ⟨⟨q, hq⟩, lat2⟩ := lat
    by_cases hne : x ≠ it.xyz
    · simp only [if_pos hne]
      cases hb : P.lbh it.xyz <;> simp only [hq]
    · simp only [if_neg hne]
      have : x = it.xyz := not_not.1 hne
      subst this
      simp only [hl, hq]

/-! ## the record -/

/-- the record of an item, without tables -/
def recOf (P : Prm) (xyz : Dict DateTime Pos) (it : ObsItem) (c : Char) (n : Int) (e : DateTime) : Except PyErr (Option (List (Option FVal))) :=
  match P.lbh (siteOf xyz it e) with
  | .error er => .error er
  | .ok l =>
    match angles P c (siteOf xyz it e) (posOf P c n e) with
    | .error er => .error er
    | .ok none => .ok none
    | .ok (some (sp, el, az)) =>
      match (if c = 'R' then freqOf P n e else some (0, 0, 0)) with
      | none => .error .key
      | some (f1, f2, _) => values P it c (f1, f2) el az sp (siteOf xyz it e) l

theorem values_length (P : Prm) (it : ObsItem) (c : Char) (glo : Rat × Rat) (el az : Rat) (sp x l : Pos) (v : List (Option FVal))
    (h : values P it c glo el az sp x l = .ok (some v)) : v.length = 51 := by
  unfold values at h
  split at h
  · cases h
  · split at h
    · cases h
    · split at h
      · cases h
      · split at h
        · cases h
        · cases h
        · cases h; rfl

theorem formatDef_length (n : Nat) : (formatDef n).length = 54 := by simp [formatDef]

theorem write_frame (env : WEnv) (cfg : Cfg) (f : Str) (i : Rat) (sat : Str) (e : DateTime) (v : List (Option FVal)) (w : Writer) (fs : FS) :
    (writeData env cfg f i sat e v w fs).w.xyz = w.xyz ∧ (writeData env cfg f i sat e v w fs).w.lbh = w.lbh := by
  have wr : ∀ (w : Writer) (fs : FS), (writeRecord env cfg i sat e v w fs).w = w := by
    intro w fs
    unfold writeRecord
    split <;> try rfl
    split <;> try rfl
    split <;> rfl
  unfold writeData
  simp only
  split
  · exact ⟨rfl, rfl⟩
  · split
    · rw [wr]; exact ⟨rfl, rfl⟩
    · unfold openOut
      simp only
      cases latest (Writer.setFile _ _ _).xyz with
      | error _ => exact ⟨rfl, rfl⟩
      | ok _ =>
        simp only
        cases latest (Writer.setFile _ _ _).lbh with
        | error _ => exact ⟨rfl, rfl⟩
        | ok _ => simp only [wr]; exact ⟨rfl, rfl⟩

/-- writing a record of an announced satellite only fails if formatting the record fails -/
theorem write_err (env : WEnv) (cfg : Cfg) (f : Str) (i : Rat) (sat : Str) (e : DateTime) (v : List (Option FVal)) (w : Writer) (fs : FS)
    (hs : w.satellite.has sat = true) (hx : ∃ p, latest w.xyz = .ok p) (hl : ∃ p, latest w.lbh = .ok p) (er : PyErr)
    (h : (writeData env cfg f i sat e v w fs).err = some er) :
    recordText env cfg i e v = .error er ∨ recordText env cfg i e v = .ok none ∧ er = .type := by
  have wr : ∀ (w : Writer) (fs : FS) si g, w.satellite.get? sat = some si → si.fobj = some g → (writeRecord env cfg i sat e v w fs).err = some er →
      recordText env cfg i e v = .error er ∨ recordText env cfg i e v = .ok none ∧ er = .type := by
    intro w fs si g h1 h2 h3
    unfold writeRecord at h3
    cases hr : recordText env cfg i e v with
    | error e' => rw [hr] at h3; left; simpa using h3
    | ok r =>
      cases r with
      | none => rw [hr] at h3; right; simpa [eq_comm] using h3
      | some t => rw [hr] at h3; simp only [h1, h2] at h3; cases h3
  obtain ⟨si, hsi⟩ := Option.isSome_iff_exists.1 hs
  unfold writeData at h
  simp only [hsi] at h
  cases hfo : si.fobj with
  | some g =>
    rw [hfo] at h
    exact wr { w with path := some (w.path.getD (outDirOf cfg.outDir f e)) } _ si g hsi hfo h
  | none =>
    rw [hfo] at h
    simp only at h
    unfold openOut at h
    obtain ⟨p, hp⟩ := hx
    obtain ⟨q, hq⟩ := hl
    simp only [Writer.setFile, hp, hq] at h
    exact wr _ _ _ _ (by simp only; rw [Dict.get?_set, if_pos rfl]) rfl h

structure EmitOk (P : Prm) (o : ObsIn) (it : ObsItem) (e : DateTime) (s : St) (ref : Except PyErr (Option (List (Option FVal)))) (r : St × Option PyErr) : Prop where
  g : r.1.g = s.g
  nav : r.1.navMsg = s.navMsg
  x : r.1.x = s.x
  l : r.1.l = s.l
  wx : r.1.w.xyz = s.w.xyz ∧ r.1.w.lbh = s.w.lbh
  err : ∀ er, ref = .error er → r = (s, some er)
  skip : ref = .ok none → r = (s, none)
  write : ∀ v, ref = .ok (some v) → ∃ new, r.1.ops = s.ops ++ new ∧ writesOf new = [(it.sat, e, v)]
  fail : ∀ v er, ref = .ok (some v) → r.2 = some er → recordText P.env P.cfg o.interval e v = .error er ∨ recordText P.env P.cfg o.interval e v = .ok none ∧ er = .type
  winv : ∀ fs0, WInv P o fs0 s → ∃ er, runOps P.env P.cfg o.filename o.interval r.1.ops Writer.new fs0 = ⟨r.1.w, r.1.fs, er⟩ ∧ (er = none ∨ er = r.2)

theorem EmitOk.error (P : Prm) (o : ObsIn) (it : ObsItem) (e : DateTime) (s : St) (er : PyErr) : EmitOk P o it e s (.error er) (s, some er) :=
  ⟨rfl, rfl, rfl, rfl, ⟨rfl, rfl⟩, (by rintro er' h'; cases h'; rfl), (by intro h'; cases h'), (by intro v h'; cases h'), (by intro v er h'; cases h'), fun _ hw => ⟨none, hw, .inl rfl⟩⟩

theorem EmitOk.none (P : Prm) (o : ObsIn) (it : ObsItem) (e : DateTime) (s : St) : EmitOk P o it e s (.ok .none) (s, .none) :=
  ⟨rfl, rfl, rfl, rfl, ⟨rfl, rfl⟩, (by rintro er' h'; cases h'), by intro _; rfl, (by intro v h'; cases h'), (by intro v er h'; cases h'), fun _ hw => ⟨.none, hw, .inl rfl⟩⟩

/-- with the navigation file and the satellite tables in place, the last stage only fails as the record or the write fails -/
theorem emitStage_spec (P : Prm) (o : ObsIn) (xyz : Dict DateTime Pos) (it : ObsItem) (c : Char) (n : Int) (e : DateTime) (s : St) (h : SInv P e.date s)
    (hx : s.x = siteOf xyz it e) (hp : s.g.satXyz.get? (c, n, e) = some (posOf P c n e))
    (hf : ∀ p, s.g.satXyz.get? (c, n, e) = some (some p) → c = 'R' → s.g.gloFreq.get? (n, e) = freqOf P n e)
    (hn : s.navMsg.get? c = some (tableOf P e.date c)) : EmitOk P o it e s (recOf P xyz it c n e) (emitStage P o it c n e.date e s) := by
  have hl := h.lbh
  rw [hx] at hl
  unfold emitStage recOf
  rw [hp, hl, hx]
  simp only
  cases ha : angles P c (siteOf xyz it e) (posOf P c n e) with
  | error er =>
    simp only
    exact .error ..
  | ok r =>
    cases r with
    | none =>
      simp only
      exact .none ..
    | some r =>
      obtain ⟨sp, el, az⟩ := r
      simp only
      have hfe : (if c = 'R' then s.g.gloFreq.get? (n, e) else some (0, 0, 0)) = (if c = 'R' then freqOf P n e else some (0, 0, 0)) := by
        by_cases hR : c = 'R'
        · simp only [hR, if_true]
          have : ∃ p, posOf P c n e = some p := by
            cases hpo : posOf P c n e with
            | some p => exact ⟨p, rfl⟩
            | none =>
              rw [hpo] at ha
              unfold angles at ha
              simp only [hR, if_true] at ha
              split at ha <;> cases ha
          obtain ⟨p, hpp⟩ := this
          exact hf p (by rw [hp, hpp]) hR
        · simp only [hR, if_false]
      rw [hfe]
      cases hq : (if c = 'R' then freqOf P n e else some (0, 0, 0)) with
      | none =>
        simp only
        exact .error ..
      | some q =>
        obtain ⟨f1, f2, k⟩ := q
        simp only
        cases hv : values P it c (f1, f2) el az sp (siteOf xyz it e) s.l with
        | error er =>
          simp only
          exact .error ..
        | ok r =>
          cases r with
          | none =>
            simp only
            exact .none ..
          | some v =>
            simp only
            have hlen := values_length _ _ _ _ _ _ _ _ _ _ hv
            unfold outStage
            rw [formatDef_length, hlen]
            simp only [ne_eq, not_true_eq_false, if_false, Nat.reduceAdd, Nat.reduceSub]
            have wr : ∀ (t : St), t.ops = s.ops ∨ (∃ d nav, t.ops = s.ops ++ [.satellite it.sat d nav]) →
                ∃ new, (call P o (.write it.sat e v) t).1.ops = s.ops ++ new ∧ writesOf new = [(it.sat, e, v)] := by
              rintro t (ht | ⟨d, nav, ht⟩)
              · exact ⟨[.write it.sat e v], by simp [call, ht], rfl⟩
              · exact ⟨[.satellite it.sat d nav, .write it.sat e v], by simp [call, ht], rfl⟩
            split
            · rename_i hhas
              refine ⟨rfl, rfl, rfl, rfl, write_frame .., (by rintro er' h'; cases h'), (by intro h'; cases h'), ?_, ?_, ?_⟩
              · intro v' h'
                cases h'
                exact wr s (.inl rfl)
              · intro v' er h' he
                cases h'
                exact write_err _ _ _ _ _ _ _ _ _ hhas h.lat.1 h.lat.2 _ he
              · intro fs0 hw
                exact ⟨_, call_winv P o fs0 _ s hw, .inr rfl⟩
            · obtain ⟨-, row, hr1, hr2⟩ := h.nav c _ hn
              rw [hr1]
              simp only
              rw [hr2]
              simp only
              refine ⟨rfl, rfl, rfl, rfl, write_frame .., (by rintro er' h'; cases h'), (by intro h'; cases h'), ?_, ?_, ?_⟩
              · intro v' h'
                cases h'
                exact wr _ (.inr ⟨_, _, rfl⟩)
              · intro v' er h' he
                cases h'
                refine write_err P.env P.cfg o.filename o.interval it.sat e v _ _ ?_ ?_ ?_ _ he
                · simp only [call, applyOp, Writer.addSatellite, Dict.has]
                  rw [Dict.get?_set, if_pos rfl]; rfl
                · exact h.lat.1
                · exact h.lat.2
              · intro fs0 hw
                have h1 := call_winv P o fs0 (.satellite it.sat (satDefOf P c n it.sat k) (fileOf P e.date c)) s hw
                exact ⟨_, call_winv P o fs0 _ _ h1, .inr rfl⟩

/-! ## the whole body -/

/-- the records an item gives -/
def writesFor (P : Prm) (xyz : Dict DateTime Pos) (it : ObsItem) (c : Char) (n : Int) (e : DateTime) : List (Str × DateTime × List (Option FVal)) :=
  match recOf P xyz it c n e with
  | .ok (some v) => [(it.sat, e, v)]
  | _ => []

structure ProcOk (P : Prm) (o : ObsIn) (xyz : Dict DateTime Pos) (it : ObsItem) (c : Char) (n : Int) (e : DateTime) (s : St) (r : St × Option PyErr) : Prop where
  inv : r.2 = none → SInv P e.date r.1
  seen : r.2 = none → ∀ c', r.1.navMsg.has c' = (decide (c = c') || s.navMsg.has c')
  ops : ∃ new, r.1.ops = s.ops ++ new ∧ (writesOf new = [] ∨ writesOf new = writesFor P xyz it c n e) ∧
    (r.2 = none → writesOf new =
      if navFlow P e.date c (s.navMsg.has c) = .skip then []
      else if s.g.satXyz.has (c, n, e) = false ∧ posFlow P c n e = .skip then []
      else writesFor P xyz it c n e)
  noerr : r.2 = none → navFlow P e.date c (s.navMsg.has c) = .skip ∨ navFlow P e.date c (s.navMsg.has c) = .next ∧
    (s.g.satXyz.has (c, n, e) = false ∧ posFlow P c n e = .skip ∨ ∃ x, recOf P xyz it c n e = .ok x)
  fail : ∀ er, r.2 = some er → navFlow P e.date c (s.navMsg.has c) = .stop er ∨ posFlow P c n e = .stop er ∨ siteFlow P xyz it e = .stop er ∨
    recOf P xyz it c n e = .error er ∨
    ∃ v, recOf P xyz it c n e = .ok (some v) ∧
      (recordText P.env P.cfg o.interval e v = .error er ∨ recordText P.env P.cfg o.interval e v = .ok none ∧ er = .type)
  winv : ∀ fs0, WInv P o fs0 s → ∃ er, runOps P.env P.cfg o.filename o.interval r.1.ops Writer.new fs0 = ⟨r.1.w, r.1.fs, er⟩ ∧ (er = none ∨ er = r.2)

theorem has_set (D : NavTable) (c c' : Char) (m : Eph) : (D.set c m).has c' = (decide (c = c') || D.has c') := by
  unfold Dict.has
  rw [Dict.get?_set]
  by_cases h : c = c' <;> simp [h]

theorem process_spec (P : Prm) (o : ObsIn) (xyz : Dict DateTime Pos) (it : ObsItem) (c : Char) (n : Int) (e : DateTime) (s : St) (h : SInv P e.date s) :
    ProcOk P o xyz it c n e s (process P o xyz it c n e s) := by
  unfold process
  obtain ⟨nf, nm, n1, n2, n3⟩ := navStage_spec P e.date c s h
  simp only
  have hw1 : ∀ fs0, WInv P o fs0 s → WInv P o fs0 (navStage P c e.date s).1 := by rw [n1]; exact fun _ h => h
  have ho1 : (navStage P c e.date s).1.ops = s.ops := by rw [n1]
  have hx1 : (navStage P c e.date s).1.g.satXyz = s.g.satXyz := by rw [n1]
  have hm1 : (navStage P c e.date s).1.navMsg = nm := by rw [n1]
  generalize navStage P c e.date s = A at *
  obtain ⟨a, fa⟩ := A
  simp only at n1 n2 n3 hw1 ho1 hx1 hm1 ⊢
  have seen : nm = (if s.navMsg.has c then s.navMsg else s.navMsg.set c (tableOf P e.date c)) → ∀ c', nm.has c' = (decide (c = c') || s.navMsg.has c') := by
    intro hnm c'
    rw [hnm]
    by_cases hc : s.navMsg.has c
    · rw [if_pos hc]
      by_cases hcc : c = c'
      · subst hcc; simp [hc]
      · simp [hcc]
    · rw [if_neg hc, has_set]
  cases hfa : fa with
  | stop er =>
    simp only
    refine ⟨(by intro h; cases h), (by intro h; cases h), ⟨[], by simp [ho1], .inl rfl, (by intro h; cases h)⟩, (by intro h; cases h), ?_, ?_⟩
    · intro er' h'; cases h'; left; rw [← n2, hfa]
    · intro fs0 hw; exact ⟨none, hw1 fs0 hw, .inl rfl⟩
  | skip =>
    simp only
    obtain ⟨i1, i2, i3⟩ := n3 (by rw [hfa]; simp)
    refine ⟨fun _ => i1, fun _ => by rw [hm1]; exact seen i3, ⟨[], by simp [ho1], .inl rfl, ?_⟩, fun _ => .inl (by rw [← n2, hfa]), (by intro er h; cases h), ?_⟩
    · intro _; rw [← n2, hfa]; simp [writesOf]
    · intro fs0 hw; exact ⟨none, hw1 fs0 hw, .inl rfl⟩
  | next =>
    simp only
    obtain ⟨i1, i2, i3⟩ := n3 (by rw [hfa]; simp)
    have hnf : navFlow P e.date c (s.navMsg.has c) ≠ .skip := by rw [← n2, hfa]; simp
    obtain ⟨sx, gf, p1, p2, p3⟩ := posStage_spec P c n e a i1 (by rw [hm1]; exact i2)
    have hw2 : ∀ fs0, WInv P o fs0 s → WInv P o fs0 (posStage P c n e a).1 := by rw [p1]; exact hw1
    have ho2 : (posStage P c n e a).1.ops = s.ops := by rw [p1]; exact ho1
    have hm2 : (posStage P c n e a).1.navMsg = nm := by rw [p1]; exact hm1
    have hx2 : (posStage P c n e a).1.g.satXyz = sx := by rw [p1]
    have hg2 : (posStage P c n e a).1.g.gloFreq = gf := by rw [p1]
    rw [hx1] at p2
    generalize posStage P c n e a = B at *
    obtain ⟨b, fb⟩ := B
    simp only at p1 p2 p3 hw2 ho2 hm2 hx2 hg2 ⊢
    cases hfb : fb with
    | stop er =>
      simp only
      refine ⟨(by intro h; cases h), (by intro h; cases h), ⟨[], by simp [ho2], .inl rfl, (by intro h; cases h)⟩, (by intro h; cases h), ?_, ?_⟩
      · intro er' h'; cases h'; right; left
        rw [hfb] at p2
        split at p2
        · cases p2
        · exact p2.symm
      · intro fs0 hw; exact ⟨none, hw2 fs0 hw, .inl rfl⟩
    | skip =>
      simp only
      obtain ⟨j1, j2, j3⟩ := p3 (by rw [hfb]; simp)
      have hskip : s.g.satXyz.has (c, n, e) = false ∧ posFlow P c n e = .skip := by
        rw [hfb] at p2
        split at p2
        · cases p2
        · rename_i hh
          exact ⟨by simpa using hh, p2.symm⟩
      refine ⟨fun _ => j1, fun _ => by rw [hm2]; exact seen i3, ⟨[], by simp [ho2], .inl rfl, ?_⟩, fun _ => .inr ⟨by rw [← n2, hfa], .inl hskip⟩,
        (by intro er h; cases h), ?_⟩
      · intro _
        rw [if_neg hnf, if_pos hskip]; rfl
      · intro fs0 hw; exact ⟨none, hw2 fs0 hw, .inl rfl⟩
    | next =>
      simp only
      obtain ⟨j1, j2, j3⟩ := p3 (by rw [hfb]; simp)
      have hpf : ¬ (s.g.satXyz.has (c, n, e) = false ∧ posFlow P c n e = .skip) := by
        rintro ⟨h1, h2⟩
        rw [h1, h2, hfb] at p2
        simp at p2
      obtain ⟨s1, s2, s3, ⟨new1, s4, s4'⟩, s5, s6, s7⟩ := siteStage_spec P o xyz it e.date e b j1
      generalize siteStage P o xyz e it.xyz b = C at *
      obtain ⟨t, ft⟩ := C
      simp only at s1 s2 s3 s4 s5 s6 s7 ⊢
      have hsf : ft ≠ .skip := by rw [s1]; unfold siteFlow; split <;> simp
      cases hft : ft with
      | skip => exact absurd hft hsf
      | stop er =>
        simp only
        refine ⟨(by intro h; cases h), (by intro h; cases h), ⟨new1, by rw [s4, ho2], .inl s4', (by intro h; cases h)⟩, (by intro h; cases h), ?_, ?_⟩
        · intro er' h'; cases h'; right; right; left; rw [← s1, hft]
        · intro fs0 hw; exact ⟨none, s7 fs0 (hw2 fs0 hw), .inl rfl⟩
      | next =>
        simp only
        obtain ⟨k1, k2⟩ := s5 hft
        have E := emitStage_spec P o xyz it c n e t k1 k2 (by rw [s2, hx2, j2]) (by intro p h1 h2; rw [s2, hg2]; rw [s2, hx2] at h1; exact j3 p h1 h2)
          (by rw [s3, hm2]; exact i2)
        generalize emitStage P o it c n e.date e t = R at *
        refine ⟨?_, ?_, ?_, ?_, ?_, ?_⟩
        · intro _
          refine ⟨by rw [E.g]; exact k1.g, ?_, by rw [E.x, E.l]; exact k1.lbh, by rw [E.wx.1, E.wx.2]; exact k1.lat⟩
          rw [E.nav, E.g]; exact k1.nav
        · intro _
          rw [E.nav, s3, hm2]; exact seen i3
        · cases hr : recOf P xyz it c n e with
          | error er =>
            have := E.err er hr
            refine ⟨new1, by rw [this]; simp only; rw [s4, ho2], .inl s4', ?_⟩
            intro h; rw [this] at h; cases h
          | ok r =>
            cases r with
            | none =>
              have := E.skip hr
              refine ⟨new1, by rw [this]; simp only; rw [s4, ho2], .inl s4', ?_⟩
              intro _; rw [if_neg hnf, if_neg hpf, s4']; simp [writesFor, hr]
            | some v =>
              obtain ⟨new2, e1, e2⟩ := E.write v hr
              have hw : writesOf (new1 ++ new2) = writesFor P xyz it c n e := by rw [writesOf_append, s4', e2]; simp [writesFor, hr]
              refine ⟨new1 ++ new2, by rw [e1, s4, ho2]; simp, .inr hw, ?_⟩
              intro _; rw [if_neg hnf, if_neg hpf, hw]
        · intro hR
          refine .inr ⟨by rw [← n2, hfa], .inr ?_⟩
          cases hr : recOf P xyz it c n e with
          | ok x => exact ⟨x, rfl⟩
          | error er => rw [E.err er hr] at hR; cases hR
        · intro er her
          right; right; right
          cases hr : recOf P xyz it c n e with
          | error er' =>
            left
            rw [E.err er' hr] at her
            cases her; rfl
          | ok r =>
            cases r with
            | none => rw [E.skip hr] at her; cases her
            | some v => exact .inr ⟨v, rfl, E.fail v er hr her⟩
        · intro fs0 hw
          exact E.winv fs0 (s7 fs0 (hw2 fs0 hw))

end Verif.Proofs
