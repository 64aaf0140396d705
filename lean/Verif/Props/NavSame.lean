import Verif.Spec.NavSame
import Verif.Props.ProgramNav
import Verif.Props.ProgramExamples
/-!
# Navigation files with the same messages (C112)
-/
namespace Verif.Props
open Verif.Py Verif.Spec Verif.Model Verif.Proofs

/-! ## The choice of a message depends on the set of messages only -/

theorem select_same_messages (M M' : Messages) (c : Char) (n : Int) (e : DateTime) (hM : ∀ τ v, Msg M c n τ v ↔ Msg M' c n τ v)
    (h1 : HasSat M c n → ∃ τ v, Msg M c n τ v) (h2 : HasSat M' c n → ∃ τ v, Msg M' c n τ v) :
    selectMessage e c n M true = selectMessage e c n M' true := by
  by_cases hs : HasSat M c n
  swap
  · have hs' : ¬ HasSat M' c n := by
      intro h
      obtain ⟨τ, v, h⟩ := h2 h
      obtain ⟨a, b, ha, hb, -⟩ := (hM τ v).2 h
      exact hs ⟨a, b, ha, hb⟩
    rw [C29_absent e c n M true hs, C29_absent e c n M' true hs']
  have hs' : HasSat M' c n := by
    obtain ⟨τ, v, h⟩ := h1 hs
    obtain ⟨a, b, ha, hb, -⟩ := (hM τ v).1 h
    exact ⟨a, b, ha, hb⟩
  by_cases hex : ∃ v, Msg M c n (timeOfDay e) v
  · obtain ⟨v, hv⟩ := hex
    rw [C30_exact e c n M true v hv, C30_exact e c n M' true v ((hM _ _).1 hv)]
  have hno : ∀ v, ¬ Msg M c n (timeOfDay e) v := fun v h => hex ⟨v, h⟩
  have hno' : ∀ v, ¬ Msg M' c n (timeOfDay e) v := fun v h => hex ⟨v, (hM _ _).2 h⟩
  by_cases hgc : c = 'G' ∨ c = 'C'
  · have hm : ∃ τ, ∃ v, Msg M c n τ v := h1 hs
    classical
    obtain ⟨v, hv⟩ := Nat.find_spec hm
    have hmin : ∀ τ' w, Msg M c n τ' w → Nat.find hm ≤ τ' := fun τ' w h => Nat.find_le ⟨w, h⟩
    rw [C32_first e c n M hgc hno _ v hv hmin, C32_first e c n M' hgc hno' _ v ((hM _ _).1 hv) fun τ' w h => hmin τ' w ((hM _ _).2 h)]
  cases hl : ageLimit c with
  | none => rw [C29_unsupported e c n M true hl hs hno, C29_unsupported e c n M' true hl hs' hno']
  | some limit =>
    obtain ⟨r, hr, hr0, hr1⟩ := C31_window e c n M true limit hl (fun h => absurd h hgc) hs hno
    obtain ⟨r', hr', hr0', hr1'⟩ := C31_window e c n M' true limit hl (fun h => absurd h hgc) hs' hno'
    rw [hr, hr']
    congr 1
    cases r with
    | none =>
      rw [eq_comm, hr0']
      intro τ v h
      exact hr0.1 rfl τ v ((hM _ _).2 h)
    | some p =>
      obtain ⟨x, v⟩ := p
      cases r' with
      | none =>
        obtain ⟨τ, hτ, he, -⟩ := hr1 x v rfl
        exact absurd he.1 (hr0'.1 rfl τ v ((hM _ _).1 hτ))
      | some p' =>
        obtain ⟨x', v'⟩ := p'
        obtain ⟨τ, hτ, he, hx⟩ := hr1 x v rfl
        obtain ⟨τ', hτ', he', hx'⟩ := hr1' x' v' rfl
        have heq : τ = τ' := by
          apply Nat.le_antisymm
          · exact he.2 τ' v' ((hM _ _).2 hτ') he'.1.1 he'.1.2
          · exact he'.2 τ v ((hM _ _).1 hτ) he.1.1 he.1.2
        subst heq
        rw [msg_unique ((hM _ _).1 hτ) hτ', hx, hx']

/-! ## The main loop depends on the choices only -/

/-- the same choices from two tables -/
def SameChoices (M M' : NavTable) : Prop := ∀ c, M.has c = M'.has c ∧ ∀ e n, selectMessage e c n M true = selectMessage e c n M' true

theorem select_get (e : DateTime) (c : Char) (n : Int) (M M' : NavTable) (h : M.get? c = M'.get? c) :
    selectMessage e c n M true = selectMessage e c n M' true := by
  unfold selectMessage; rw [h]

theorem sameChoices_set {M M' : NavTable} (h : SameChoices M M') (c : Char) (m m' : Eph)
    (hm : ∀ e n, selectMessage e c n [(c, m)] true = selectMessage e c n [(c, m')] true) : SameChoices (M.set c m) (M'.set c m') := by
  intro c'
  by_cases hc : c' = c
  · subst hc
    refine ⟨by simp [Dict.has, Dict.get?_set], fun e n => ?_⟩
    rw [select_get e c' n (M.set c' m) [(c', m)] (by simp [Dict.get?_set, Dict.get?]), hm,
      select_get e c' n (M'.set c' m') [(c', m')] (by simp [Dict.get?_set, Dict.get?])]
  · have h1 : (M.set c m).get? c' = M.get? c' := by rw [Dict.get?_set, if_neg (Ne.symm hc)]
    have h2 : (M'.set c m').get? c' = M'.get? c' := by rw [Dict.get?_set, if_neg (Ne.symm hc)]
    refine ⟨?_, fun e n => ?_⟩
    · unfold Dict.has; rw [h1, h2]; exact (h c').1
    · rw [select_get e c' n _ M h1, select_get e c' n _ M' h2]; exact (h c').2 e n

/-- the same navigation data from two loaders -/
def SameLoads (l l' : Date → Char → Except PyErr (Str × Eph)) : Prop :=
  ∀ d c, (∃ er, l d c = .error er ∧ l' d c = .error er) ∨ ∃ f m m', l d c = .ok (f, m) ∧ l' d c = .ok (f, m') ∧
    ∀ e n, selectMessage e c n [(c, m)] true = selectMessage e c n [(c, m')] true

/-- the two states differ in the table of messages only -/
def NavSim (s s' : St) : Prop := ∃ M', s' = { s with navMsg := M' } ∧ SameChoices s.navMsg M'

theorem sim_nav (P : Prm) (l' : Date → Char → Except PyErr (Str × Eph)) (hl : SameLoads P.load l') (c : Char) (d : Date) (s s' : St) (h : NavSim s s') :
    NavSim (navStage P c d s).1 (navStage { P with load := l' } c d s').1 ∧ (navStage { P with load := l' } c d s').2 = (navStage P c d s).2 := by
  obtain ⟨M', rfl, hM⟩ := h
  unfold navStage
  have key : ∀ g : Glob, ∀ s : St, SameChoices s.navMsg M' →
      NavSim ((if s.navMsg.has c then (({ s with g := g } : St), Flow.next) else
        match P.load d c with
        | .error e => if e = .rinex ∨ e = .nm then ({ s with navMsg := s.navMsg.set c [], g := g.setNav d c none }, .skip) else ({ s with navMsg := s.navMsg.set c [], g := g.setNav d c none }, .stop e)
        | .ok (f, m) => ({ s with navMsg := (s.navMsg.set c []).set c m, g := (g.setNav d c none).setNav d c (some f) }, .next)).1)
        ((if M'.has c then (({ s with g := g, navMsg := M' } : St), Flow.next) else
        match l' d c with
        | .error e => if e = .rinex ∨ e = .nm then ({ s with navMsg := M'.set c [], g := g.setNav d c none }, .skip) else ({ s with navMsg := M'.set c [], g := g.setNav d c none }, .stop e)
        | .ok (f, m) => ({ s with navMsg := (M'.set c []).set c m, g := (g.setNav d c none).setNav d c (some f) }, .next)).1) ∧
      ((if M'.has c then (({ s with g := g, navMsg := M' } : St), Flow.next) else
        match l' d c with
        | .error e => if e = .rinex ∨ e = .nm then ({ s with navMsg := M'.set c [], g := g.setNav d c none }, .skip) else ({ s with navMsg := M'.set c [], g := g.setNav d c none }, .stop e)
        | .ok (f, m) => ({ s with navMsg := (M'.set c []).set c m, g := (g.setNav d c none).setNav d c (some f) }, .next)).2) =
      ((if s.navMsg.has c then (({ s with g := g } : St), Flow.next) else
        match P.load d c with
        | .error e => if e = .rinex ∨ e = .nm then ({ s with navMsg := s.navMsg.set c [], g := g.setNav d c none }, .skip) else ({ s with navMsg := s.navMsg.set c [], g := g.setNav d c none }, .stop e)
        | .ok (f, m) => ({ s with navMsg := (s.navMsg.set c []).set c m, g := (g.setNav d c none).setNav d c (some f) }, .next)).2) := by
    intro g s hM
    rw [(hM c).1]
    by_cases hh : M'.has c = true
    · rw [if_pos hh, if_pos hh]
      exact ⟨⟨M', rfl, hM⟩, rfl⟩
    · rw [if_neg hh, if_neg hh]
      rcases hl d c with ⟨er, h1, h2⟩ | ⟨f, m, m', h1, h2, h3⟩
      · rw [h1, h2]
        have hset := sameChoices_set hM c [] [] fun _ _ => rfl
        simp only
        split
        · exact ⟨⟨_, rfl, hset⟩, rfl⟩
        · exact ⟨⟨_, rfl, hset⟩, rfl⟩
      · rw [h1, h2]
        exact ⟨⟨_, rfl, sameChoices_set (sameChoices_set hM c [] [] fun _ _ => rfl) c m m' h3⟩, rfl⟩
  by_cases hd : s.g.navFile.has d = true
  · simp only [if_pos hd]
    exact key s.g s hM
  · simp only [if_neg hd]
    exact key { s.g with navFile := s.g.navFile.set d [] } s hM

theorem sim_pos (P : Prm) (l' : Date → Char → Except PyErr (Str × Eph)) (c : Char) (n : Int) (e : DateTime) (s s' : St) (h : NavSim s s') :
    NavSim (posStage P c n e s).1 (posStage { P with load := l' } c n e s').1 ∧ (posStage { P with load := l' } c n e s').2 = (posStage P c n e s).2 := by
  obtain ⟨M', rfl, hM⟩ := h
  unfold posStage
  by_cases hh : s.g.satXyz.has (c, n, e) = true
  · rw [if_pos hh, if_pos hh]
    exact ⟨⟨M', rfl, hM⟩, rfl⟩
  · rw [if_neg hh, if_neg hh]
    simp only
    rw [(hM c).2 e n]
    cases selectMessage e c n M' true with
    | error er => exact ⟨⟨M', rfl, hM⟩, rfl⟩
    | ok r =>
      cases r with
      | none => exact ⟨⟨M', rfl, hM⟩, rfl⟩
      | some p =>
        obtain ⟨dt, eph⟩ := p
        simp only
        cases P.satPos c eph dt with
        | error er => simp only; split <;> exact ⟨⟨M', rfl, hM⟩, rfl⟩
        | ok p =>
          simp only
          split
          · cases (eph[7]? : Option PyFloat) with
            | none => exact ⟨⟨M', rfl, hM⟩, rfl⟩
            | some k =>
              cases k with
              | fin k => simp only; split <;> exact ⟨⟨M', rfl, hM⟩, rfl⟩
              | _ => exact ⟨⟨M', rfl, hM⟩, rfl⟩
          · exact ⟨⟨M', rfl, hM⟩, rfl⟩

theorem sim_site (P : Prm) (l' : Date → Char → Except PyErr (Str × Eph)) (o : ObsIn) (xyz : Dict DateTime Pos) (e : DateTime) (hdr : Pos) (s s' : St) (h : NavSim s s') :
    NavSim (siteStage P o xyz e hdr s).1 (siteStage { P with load := l' } o xyz e hdr s').1 ∧
      (siteStage { P with load := l' } o xyz e hdr s').2 = (siteStage P o xyz e hdr s).2 := by
  obtain ⟨M', rfl, hM⟩ := h
  have fin : ∀ s : St, SameChoices s.navMsg M' →
      NavSim ((match latest s.w.xyz with
        | .error er => (s, Flow.stop er)
        | .ok p => if s.x ≠ p then ((call P o (.geodetic e s.l) (call P o (.position e s.x) s).1).1, Flow.next) else (s, .next)) : St × Flow).1
        ((match latest s.w.xyz with
        | .error er => ({ s with navMsg := M' }, Flow.stop er)
        | .ok p => if s.x ≠ p then ((call { P with load := l' } o (.geodetic e s.l) (call { P with load := l' } o (.position e s.x) { s with navMsg := M' }).1).1, Flow.next)
          else ({ s with navMsg := M' }, .next)) : St × Flow).1 ∧
      ((match latest s.w.xyz with
        | .error er => ({ s with navMsg := M' }, Flow.stop er)
        | .ok p => if s.x ≠ p then ((call { P with load := l' } o (.geodetic e s.l) (call { P with load := l' } o (.position e s.x) { s with navMsg := M' }).1).1, Flow.next)
          else ({ s with navMsg := M' }, .next)) : St × Flow).2 =
      ((match latest s.w.xyz with
        | .error er => (s, Flow.stop er)
        | .ok p => if s.x ≠ p then ((call P o (.geodetic e s.l) (call P o (.position e s.x) s).1).1, Flow.next) else (s, .next)) : St × Flow).2 := by
    intro s hM
    cases latest s.w.xyz with
    | error er => exact ⟨⟨M', rfl, hM⟩, rfl⟩
    | ok p => simp only; split <;> exact ⟨⟨M', rfl, hM⟩, rfl⟩
  unfold siteStage
  simp only
  cases xyz.get? e with
  | some p =>
    simp only
    cases P.lbh p with
    | error er => exact ⟨⟨M', rfl, hM⟩, rfl⟩
    | ok l => exact fin { s with x := p, l := l } hM
  | none =>
    simp only
    by_cases hx : s.x ≠ hdr
    · rw [if_pos hx, if_pos hx]
      cases P.lbh hdr with
      | error er => exact ⟨⟨M', rfl, hM⟩, rfl⟩
      | ok l => exact fin { s with x := hdr, l := l } hM
    · rw [if_neg hx, if_neg hx]
      exact fin s hM

theorem sim_emit (P : Prm) (l' : Date → Char → Except PyErr (Str × Eph)) (o : ObsIn) (it : ObsItem) (c : Char) (n : Int) (d : Date) (e : DateTime) (s s' : St) (h : NavSim s s') :
    NavSim (emitStage P o it c n d e s).1 (emitStage { P with load := l' } o it c n d e s').1 ∧
      (emitStage { P with load := l' } o it c n d e s').2 = (emitStage P o it c n d e s).2 := by
  obtain ⟨M', rfl, hM⟩ := h
  unfold emitStage
  simp only
  cases s.g.satXyz.get? (c, n, e) with
  | none => exact ⟨⟨M', rfl, hM⟩, rfl⟩
  | some cached =>
    simp only
    rw [show angles { P with load := l' } c s.x cached = angles P c s.x cached from rfl]
    cases angles P c s.x cached with
    | error er => exact ⟨⟨M', rfl, hM⟩, rfl⟩
    | ok r =>
      cases r with
      | none => exact ⟨⟨M', rfl, hM⟩, rfl⟩
      | some a =>
        obtain ⟨sp, el, az⟩ := a
        simp only
        cases (if c = 'R' then s.g.gloFreq.get? (n, e) else some (0, 0, 0)) with
        | none => exact ⟨⟨M', rfl, hM⟩, rfl⟩
        | some f =>
          obtain ⟨f1, f2, k⟩ := f
          simp only
          rw [show values { P with load := l' } it c (f1, f2) el az sp s.x s.l = values P it c (f1, f2) el az sp s.x s.l from rfl]
          cases values P it c (f1, f2) el az sp s.x s.l with
          | error er => exact ⟨⟨M', rfl, hM⟩, rfl⟩
          | ok r =>
            cases r with
            | none => exact ⟨⟨M', rfl, hM⟩, rfl⟩
            | some vals =>
              simp only
              unfold outStage
              simp only
              split
              · exact ⟨⟨M', rfl, hM⟩, rfl⟩
              · split
                · exact ⟨⟨M', rfl, hM⟩, rfl⟩
                · cases s.g.navFile.get? d with
                  | none => exact ⟨⟨M', rfl, hM⟩, rfl⟩
                  | some row =>
                    simp only
                    cases row.get? c with
                    | none => exact ⟨⟨M', rfl, hM⟩, rfl⟩
                    | some nav => exact ⟨⟨M', rfl, hM⟩, rfl⟩

theorem sim_process (P : Prm) (l' : Date → Char → Except PyErr (Str × Eph)) (hl : SameLoads P.load l') (o : ObsIn) (xyz : Dict DateTime Pos) (it : ObsItem) (c : Char) (n : Int)
    (e : DateTime) (s s' : St) (h : NavSim s s') :
    NavSim (process P o xyz it c n e s).1 (process { P with load := l' } o xyz it c n e s').1 ∧
      (process { P with load := l' } o xyz it c n e s').2 = (process P o xyz it c n e s).2 := by
  unfold process
  simp only
  obtain ⟨h1, h2⟩ := sim_nav P l' hl c e.date s s' h
  rw [h2]
  generalize navStage P c e.date s = a at *
  generalize navStage { P with load := l' } c e.date s' = a' at *
  obtain ⟨a, fa⟩ := a
  obtain ⟨a', fa'⟩ := a'
  simp only at *
  cases fa with
  | skip => exact ⟨h1, rfl⟩
  | stop er => exact ⟨h1, rfl⟩
  | next =>
    obtain ⟨h3, h4⟩ := sim_pos P l' c n e a a' h1
    simp only
    rw [h4]
    generalize posStage P c n e a = b at *
    generalize posStage { P with load := l' } c n e a' = b' at *
    obtain ⟨b, fb⟩ := b
    obtain ⟨b', fb'⟩ := b'
    simp only at *
    cases fb with
    | skip => exact ⟨h3, rfl⟩
    | stop er => exact ⟨h3, rfl⟩
    | next =>
      obtain ⟨h5, h6⟩ := sim_site P l' o xyz e it.xyz b b' h3
      simp only
      rw [h6]
      generalize siteStage P o xyz e it.xyz b = d at *
      generalize siteStage { P with load := l' } o xyz e it.xyz b' = d' at *
      obtain ⟨d, fd⟩ := d
      obtain ⟨d', fd'⟩ := d'
      simp only at *
      cases fd with
      | skip => exact ⟨h5, rfl⟩
      | stop er => exact ⟨h5, rfl⟩
      | next => exact sim_emit P l' o it c n e.date e d d' h5

theorem sim_items (P : Prm) (l' : Date → Char → Except PyErr (Str × Eph)) (hl : SameLoads P.load l') (o : ObsIn) (sampling : Option Int) (xyz : Dict DateTime Pos)
    (its : List ObsItem) : ∀ (last : Option DateTime) (s s' : St), NavSim s s' →
      NavSim (runItems P o sampling xyz its last s).1 (runItems { P with load := l' } o sampling xyz its last s').1 ∧
      (runItems { P with load := l' } o sampling xyz its last s').2 = (runItems P o sampling xyz its last s).2 := by
  induction its with
  | nil => intro last s s' h; exact ⟨h, rfl⟩
  | cons it its ih =>
    intro last s s' h
    unfold runItems
    cases admit o sampling last it with
    | error er => exact ⟨h, rfl⟩
    | ok r =>
      cases r with
      | none => exact ih last s s' h
      | some a =>
        obtain ⟨c, n, e, last'⟩ := a
        simp only
        obtain ⟨h1, h2⟩ := sim_process P l' hl o xyz it c n e s s' h
        rw [h2]
        cases (process P o xyz it c n e s).2 with
        | some er => exact ⟨h1, rfl⟩
        | none => exact ih last' _ _ h1

theorem sim_file (P : Prm) (l' : Date → Char → Except PyErr (Str × Eph)) (hl : SameLoads P.load l') (f : FileIn) (g : Glob) (fs : FS) :
    processFile { P with load := l' } f g fs = processFile P f g fs := by
  unfold processFile
  cases f.opened with
  | error er => rfl
  | ok o =>
    simp only
    split
    · rfl
    · cases o.tofo with
      | none => rfl
      | some p =>
        obtain ⟨t, sys⟩ := p
        simp only
        split
        · rfl
        · cases P.lbh o.xyz with
          | error er => rfl
          | ok l =>
            simp only
            cases f.xyzData with
            | error er => rfl
            | ok xyz =>
              simp only
              have h0 : NavSim (startState P o t l g fs) (startState { P with load := l' } o t l g fs) := ⟨(startState P o t l g fs).navMsg, rfl, fun _ => ⟨rfl, fun _ _ => rfl⟩⟩
              obtain ⟨⟨M', h1, -⟩, h2⟩ := sim_items P l' hl o (samplingFor P.cfg o.interval) xyz o.items none _ _ h0
              rw [h1, h2]

theorem sim_loop (P : Prm) (l' : Date → Char → Except PyErr (Str × Eph)) (hl : SameLoads P.load l') (files : List FileIn) : ∀ (g : Glob) (fs : FS),
    mainLoop { P with load := l' } files g fs = mainLoop P files g fs := by
  induction files with
  | nil => intro g fs; rfl
  | cons f files ih =>
    intro g fs
    unfold mainLoop
    rw [sim_file P l' hl]
    simp only [ih]

/-! ## From the files -/

theorem same_table {T T' : NavTable} (h : ∀ s n τ v, Msg T s n τ v ↔ Msg T' s n τ v) (hT : NoEmpty T) (hT' : NoEmpty T') (c : Char) :
    (T.get? c = none ∧ T'.get? c = none) ∨ ∃ m m', T.get? c = some m ∧ T'.get? c = some m' ∧
      ∀ e n, selectMessage e c n [(c, m)] true = selectMessage e c n [(c, m')] true := by
  cases h1 : T.get? c with
  | none =>
    cases h2 : T'.get? c with
    | none => exact .inl ⟨rfl, rfl⟩
    | some m' =>
      obtain ⟨n, τ, v, hm⟩ := noEmpty_msg hT' h2
      obtain ⟨a, b, ha, -⟩ := (h c n τ v).2 hm
      rw [h1] at ha; cases ha
  | some m =>
    cases h2 : T'.get? c with
    | none =>
      obtain ⟨n, τ, v, hm⟩ := noEmpty_msg hT h1
      obtain ⟨a, b, ha, -⟩ := (h c n τ v).1 hm
      rw [h2] at ha; cases ha
    | some m' =>
      refine .inr ⟨m, m', rfl, rfl, fun e n => select_same_messages _ _ c n e (fun τ v => ?_) ?_ ?_⟩
      · rw [msg_single h1, msg_single h2]; exact h c n τ v
      · rintro ⟨a, b, ha, hb⟩
        have ha' : m = a := by simpa [Dict.get?] using ha
        subst ha'
        obtain ⟨τ, v, hv⟩ := hT.2 c m n b h1 hb
        exact ⟨τ, v, m, b, ha, hb, hv⟩
      · rintro ⟨a, b, ha, hb⟩
        have ha' : m' = a := by simpa [Dict.get?] using ha
        subst ha'
        obtain ⟨τ, v, hv⟩ := hT'.2 c m' n b h2 hb
        exact ⟨τ, v, m', b, ha, hb, hv⟩

theorem listDirs_unchanged {D D' : Disk} (h : ∀ d, D'.listing d = D.listing d) (dirs : List Str) : listDirs D' dirs = listDirs D dirs := by
  induction dirs with
  | nil => rfl
  | cons d ds ih => unfold listDirs; rw [h, ih]

theorem navFileOf_same {D D' : Disk} {files : List Str} (h : NavRewritten D D' files) (f : Str) (c : Char) :
    (∃ er, navFileOf D f = .error er ∧ navFileOf D' f = .error er) ∨ ∃ T T', navFileOf D f = .ok T ∧ navFileOf D' f = .ok T' ∧
      ((T.get? c = none ∧ T'.get? c = none) ∨ ∃ m m', T.get? c = some m ∧ T'.get? c = some m' ∧
        ∀ e n, selectMessage e c n [(c, m)] true = selectMessage e c n [(c, m')] true) := by
  by_cases hf : f ∈ files
  · obtain ⟨day, ms, ms', hd, ⟨file, w, v, h1, h2⟩, ⟨file', w', v', h3, h4⟩, hs⟩ := h.same f hf
    obtain ⟨T, a1, a2, a3⟩ := navFileOf_written D f day file w v ms hd h1 h2
    obtain ⟨T', b1, b2, b3⟩ := navFileOf_written D' f day file' w' v' ms' hd h3 h4
    exact .inr ⟨T, T', a1, b1, same_table (fun s n τ v => by rw [a2, b2]; exact hs s n τ v) a3 b3 c⟩
  · have : navFileOf D' f = navFileOf D f := by
      unfold navFileOf fetchNav
      rw [h.others .gunzip f hf, h.others .text f hf]
    rw [this]
    cases navFileOf D f with
    | error er => exact .inl ⟨er, rfl, rfl⟩
    | ok T =>
      refine .inr ⟨T, T, rfl, rfl, ?_⟩
      cases T.get? c with
      | none => exact .inl ⟨rfl, rfl⟩
      | some m => exact .inr ⟨m, m, rfl, rfl, fun _ _ => rfl⟩

theorem has_get {T : NavTable} {c : Char} : T.has c = (T.get? c).isSome := rfl

theorem loadFor_same {D D' : Disk} {files : List Str} (h : NavRewritten D D' files) (cfg : Cfg) : SameLoads (loadFor D cfg) (loadFor D' cfg) := by
  intro d c
  unfold loadFor
  rw [listDirs_unchanged h.listing]
  cases cfg.navPriority.get? c with
  | none => exact .inl ⟨_, rfl, rfl⟩
  | some priority =>
    simp only
    cases listDirs D cfg.navDir with
    | error er => exact .inl ⟨_, rfl, rfl⟩
    | ok dirs =>
      simp only
      unfold loadNavigationMessage
      cases chooseNavFile dirs d.start c priority with
      | error er => exact .inl ⟨_, rfl, rfl⟩
      | ok f =>
        simp only
        rcases navFileOf_same h f c with ⟨er, h1, h2⟩ | ⟨T, T', h1, h2, h3⟩
        · rw [h1, h2]; exact .inl ⟨_, rfl, rfl⟩
        · rw [h1, h2]
          simp only [has_get]
          rcases h3 with ⟨g1, g2⟩ | ⟨m, m', g1, g2, g3⟩
          · simp only [g1, g2, Option.isSome_none, Bool.false_eq_true, if_false]; exact .inl ⟨_, rfl, rfl⟩
          · simp only [g1, g2, Option.isSome_some, if_true]
            exact .inr ⟨f, m, m', rfl, rfl, g3⟩

theorem fileIn_same {D D' : Disk} {files : List Str} (h : NavRewritten D D' files) (hx : ∀ f ∈ files, ¬ (c% ".xyz") <:+ f) (fuel : Nat) (b : Bool) (p : Str) (hp : p ∉ files) :
    fileIn D' fuel b p = fileIn D fuel b p := by
  have h1 : obsFile D' fuel p = obsFile D fuel p := by
    unfold obsFile fetchObs
    cases expandObs p with
    | error er => rfl
    | ok k => cases k <;> simp only [h.others _ p hp]
  have h2 : xyzData D' b p = xyzData D b p := by
    unfold xyzData
    split
    · rfl
    · cases hn : xyzName p with
      | none => rfl
      | some n =>
        have hnf : n ∉ files := by
          intro hf
          apply hx n hf
          unfold xyzName at hn
          simp only [Option.map_eq_some_iff] at hn
          obtain ⟨a, -, rfl⟩ := hn
          exact ⟨_, rfl⟩
        simp only [h.present, h.others .text n hnf]
  unfold fileIn
  rw [h1, h2]

theorem allOf_congr {α β : Type} {f g : α → Option β} {l : List α} (h : ∀ a ∈ l, f a = g a) : allOf f l = allOf g l := by
  induction l with
  | nil => rfl
  | cons a l ih =>
    unfold allOf
    rw [h a (by simp), ih fun b hb => h b (by simp [hb])]

/-- C112: if navigation files are written anew with the same messages for their day — in another order, with repetitions, with other messages of other days, in another
version of the format —, the run is the same: the same output files, the same calls of the writer, and it ends in the same way. -/
theorem C112_run (X : Ext) (D D' : Disk) (cfg : Cfg) (fuel : Nat) (fs : FS) (files paths : List Str) (hn : PlainNames D cfg.obsDir) (hf : InputFiles D cfg.obsDir paths)
    (h : NavRewritten D D' files) (hobs : ∀ p ∈ paths, p ∉ files) (hxyz : ∀ f ∈ files, ¬ (c% ".xyz") <:+ f) :
    program X D' cfg fuel fs = program X D cfg fuel fs := by
  have h1 : obsFiles D cfg = .ok paths := (C72_files D cfg paths hn).2 hf
  have h2 : obsFiles D' cfg = .ok paths := by
    rw [← h1]; unfold obsFiles; rw [listDirs_unchanged h.listing]
  have h3 : someXyz D' cfg = someXyz D cfg := by
    unfold someXyz; rw [listDirs_unchanged h.listing]
  unfold program
  rw [h1, h2, h3]
  cases paths with
  | nil => rfl
  | cons p ps =>
    simp only
    rw [allOf_congr fun a ha => fileIn_same h hxyz fuel (someXyz D cfg) a (hobs a ha)]
    congr 1
    funext ins
    rw [show prmOf X D' cfg = { prmOf X D cfg with load := loadFor D' cfg } from rfl, sim_loop (prmOf X D cfg) _ (loadFor_same h cfg)]

/-! ## Sequences with the same messages -/

theorem lastOf_mem {day : DateTime} {ms : List NavMsg} {s : Char} {n : Int} {τ : Nat} {v : List PyFloat} (h : LastOf day ms s n τ v) :
    ∃ m ∈ ms, OnDay m.epoch day ∧ m.system = s ∧ (m.number : Int) = n ∧ timeOfDay m.epoch = τ ∧ v = m.values := by
  obtain ⟨a, m, b, rfl, h1, h2, h3, h4, h5, -⟩ := h
  exact ⟨m, by simp, h1, h2, h3, h4, h5⟩

theorem lastOf_consistent {day : DateTime} {ms : List NavMsg} (hc : Agreeing day ms) (s : Char) (n : Int) (τ : Nat) (v : List PyFloat) :
    LastOf day ms s n τ v ↔ ∃ m ∈ ms, OnDay m.epoch day ∧ m.system = s ∧ (m.number : Int) = n ∧ timeOfDay m.epoch = τ ∧ v = m.values := by
  constructor
  · exact lastOf_mem
  · rintro ⟨m, hm, h1, h2, h3, h4, rfl⟩
    obtain ⟨w, hw⟩ := lastOf_exists hm h2 h1
    obtain ⟨m', hm', g1, g2, g3, g4, g5⟩ := lastOf_mem hw
    have : m.values = w := by
      rw [g5]
      exact hc m hm m' hm' h1 g1 ⟨by rw [h2, g2], by exact_mod_cast g3.symm, g4.symm⟩
    rw [this, ← h3, ← h4]
    exact hw

/-- C112, the order: the messages in any order, any number of times, with any messages of other days, if messages for the same satellite and time agree. -/
theorem C112_order (day : DateTime) (ms ms' : List NavMsg) (hc : Agreeing day ms) (h : ∀ m, OnDay m.epoch day → (m ∈ ms ↔ m ∈ ms')) : SameMessages day ms ms' := by
  have hc' : Agreeing day ms' := fun a ha b hb h1 h2 => hc a ((h a h1).2 ha) b ((h b h2).2 hb) h1 h2
  intro s n τ v
  rw [lastOf_consistent hc, lastOf_consistent hc']
  constructor
  · rintro ⟨m, hm, h1, h2⟩; exact ⟨m, (h m h1).1 hm, h1, h2⟩
  · rintro ⟨m, hm, h1, h2⟩; exact ⟨m, (h m h1).2 hm, h1, h2⟩

end Verif.Props

namespace Verif.Props.ProgEx
open Verif.Py Verif.Spec Verif.Model Verif.Proofs

/-- the messages of the example in the other order, one of them twice, and white space behind the header line -/
def navLines' : List Str :=
  [HLine.render 303 (.version 303 'N' 'M' navWords) ++ [' ', '\n']] ++ hline [] lblEnd :: (exLines (navR 24 3) ++ (exLines (navG 1 7) ++ (exLines (navR 24 3) ++ [])))

def disk' : Disk := { disk with lines := fun f p => if f = .text ∧ p = navPath then .ok navLines' else disk.lines f p }

theorem C112_hypotheses : NavRewritten disk disk' [navPath] ∧ navLines' ≠ navLines := by
  refine ⟨⟨fun _ => rfl, fun _ => rfl, ?_, ?_⟩, by decide +kernel⟩
  · intro k p hp
    simp only [List.mem_cons, List.not_mem_nil, or_false] at hp
    simp [disk', hp]
  · intro f hf
    simp only [List.mem_cons, List.not_mem_nil, or_false] at hf
    subst hf
    obtain ⟨h1, h2, -⟩ := C75_hypotheses
    refine ⟨⟨2017, 1, 2, 0, 0, 0, 0⟩, [navG 1 7, navR 24 3], [navR 24 3, navG 1 7, navR 24 3], ?_, ⟨_, _, _, h2, h1⟩, ⟨navLines', 303, 303, ?_, ?_⟩, ?_⟩
    · exact (namedDay_iff navPath ⟨2017, 1, 2⟩ ⟨c% "BRDC00IGS_R_20170020000_01D_MN.rnx", by decide, .inr ⟨c% "n", rfl⟩⟩).1 (by decide +kernel)
    · refine ⟨h2.line, fun hp => ?_, fun _ => by simp [disk']⟩
      have := (packed_iff navPath (by decide)).2 hp
      revert this
      decide +kernel
    · obtain ⟨-, f, sys, wd, hs, hdr, endl, body, -, -, -, -, -, -, hm, -⟩ := h1
      refine ⟨?_, 'N', 'M', navWords, [], [HLine.render 303 (.version 303 'N' 'M' navWords) ++ [' ', '\n']], hline [] lblEnd, _, by decide, rfl, ?_, by simp, by decide +kernel, by decide +kernel, ?_, ?_⟩
      · have : ((303 : Nat) : Rat) / 100 = 303 / 100 := by norm_num
        rw [this]
        decide +kernel
      · exact ⟨⟨[' ', '\n'], rfl, by decide⟩, trivial⟩
      · intro m hmm
        have : m ∈ [navG 1 7, navR 24 3] := by simp at hmm ⊢; tauto
        exact hm m this
      · exact ⟨_, _, rfl, ⟨⟨false, written_refl _⟩, by decide +kernel⟩, _, _, rfl, ⟨⟨false, written_refl _⟩, by decide +kernel⟩, _, _, rfl, ⟨⟨false, written_refl _⟩, by decide +kernel⟩, rfl⟩
    · apply C112_order
      · rintro a ha b hb - - ⟨hs, -⟩
        simp only [List.mem_cons, List.not_mem_nil, or_false] at ha hb
        rcases ha with rfl | rfl <;> rcases hb with rfl | rfl <;> first | rfl | (exfalso; revert hs; decide)
      · intro m _
        simp only [List.mem_cons, List.not_mem_nil, or_false]
        tauto

/-- the run over the example is the same with the rewritten file; records of both satellites are written -/
theorem C112_example : program ext disk' cfg 0 [] = program ext disk cfg 0 [] ∧
    ((program ext disk' cfg 0 []).map fun r => (r.calls.map fun l => (writesOf l).map (·.1))) = some [[c% "G01", c% "R24", c% "G01", c% "R24"]] := by
  refine ⟨C112_run ext disk disk' cfg 0 [] [navPath] [obsPath] plain inputs C112_hypotheses.1 (by decide) (by decide), by decide +kernel⟩

end Verif.Props.ProgEx
