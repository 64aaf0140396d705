import Verif.Spec.Writer
import Verif.Props.NavNames
import Verif.Props.Columns
import Verif.Proofs.Calendar
import Verif.Proofs.Rat
import Verif.Proofs.Names
import Mathlib.Tactic.Linarith
import Mathlib.Tactic.FieldSimp
/-!
# C52-C56: output files
-/
namespace Verif.Props
open Verif.Py Verif.Model Verif.Spec

/-! ## proof: bookkeeping -/

private def satF (acc : Option (Str × Option Str)) (sat : Str) : WOp → Option (Str × Option Str)
  | .satellite s d n => if s = sat then some (d, n) else acc
  | _ => acc
private def lastSat (ops : List WOp) (sat : Str) : Option (Str × Option Str) := ops.foldl (fun a o => satF a sat o) none
def xyzF (d : Dict DateTime Pos) : WOp → Dict DateTime Pos
  | .position t p => d.set t p
  | _ => d
def lbhF (d : Dict DateTime Pos) : WOp → Dict DateTime Pos
  | .geodetic t p => d.set t p
  | _ => d

private theorem recordsOf_append (a b : List WOp) (sat : Str) : recordsOf (a ++ b) sat = recordsOf a sat ++ recordsOf b sat := by
  induction a with
  | nil => rfl
  | cons o a ih =>
    cases o with
    | write s e v =>
      simp only [List.cons_append, recordsOf]
      split <;> simp [ih]
    | _ => simpa [recordsOf] using ih

theorem snoc_cases {α : Type} (P : List α → Prop) (h0 : P []) (h1 : ∀ l a, P l → P (l ++ [a])) (l : List α) : P l := by
  have : ∀ l : List α, P l.reverse := by
    intro l
    induction l with
    | nil => exact h0
    | cons a l ih => rw [List.reverse_cons]; exact h1 _ _ ih
  simpa using this l.reverse

private theorem lastSat_spec (ops : List WOp) (sat d : Str) (n : Option Str) (h : lastSat ops sat = some (d, n)) : SatelliteIs ops sat d n := by
  induction ops using snoc_cases with
  | h0 => cases h
  | h1 l a ih =>
    simp only [lastSat, List.foldl_append, List.foldl_cons, List.foldl_nil] at h
    cases a with
    | satellite s d' n' =>
      by_cases hs : s = sat
      · subst hs
        simp only [satF, if_true, Option.some.injEq, Prod.mk.injEq] at h
        obtain ⟨rfl, rfl⟩ := h
        exact ⟨l, [], rfl, by simp⟩
      · simp only [satF, if_neg hs] at h
        obtain ⟨pre, post, rfl, hp⟩ := ih h
        refine ⟨pre, post ++ [.satellite s d' n'], by simp, ?_⟩
        intro d2 n2 hm
        rcases List.mem_append.1 hm with hm | hm
        · exact hp _ _ hm
        · simp only [List.mem_singleton, WOp.satellite.injEq] at hm; exact hs hm.1.symm
    | _ =>
      simp only [satF] at h
      obtain ⟨pre, post, rfl, hp⟩ := ih h
      exact ⟨pre, post ++ [_], by simp; rfl, by
        intro d2 n2 hm
        rcases List.mem_append.1 hm with hm | hm
        · exact hp _ _ hm
        · simp at hm⟩

theorem latestKey_spec (l : List DateTime) : (∀ t, latestKey l = some t → t ∈ l ∧ ∀ u ∈ l, u.toMicros ≤ t.toMicros) := by
  induction l with
  | nil => intro t h; cases h
  | cons a l ih =>
    intro t h
    simp only [latestKey] at h
    cases hl : latestKey l with
    | none =>
      rw [hl] at h; cases h
      cases l with
      | nil => exact ⟨by simp, by simp⟩
      | cons b l =>
        simp only [latestKey] at hl
        split at hl
        · cases hl
        · split at hl <;> cases hl
    | some u =>
      obtain ⟨h1, h2⟩ := ih u hl
      rw [hl] at h
      simp only at h
      split at h
      · cases h
        refine ⟨by simp, ?_⟩
        intro v hv
        rcases List.mem_cons.1 hv with rfl | hv
        · exact le_refl _
        · exact le_trans (h2 v hv) (by assumption)
      · cases h
        refine ⟨by simp [h1], ?_⟩
        intro v hv
        rcases List.mem_cons.1 hv with rfl | hv
        · omega
        · exact h2 v hv

theorem latest_spec (d : Dict DateTime Pos) (p : Pos) (h : latest d = .ok p) :
    ∃ t, d.get? t = some p ∧ ∀ u ∈ d.keys, u.toMicros ≤ t.toMicros := by
  unfold latest at h
  split at h
  · cases h
  · rename_i t ht
    split at h
    · cases h
    · rename_i q hq
      cases h
      exact ⟨t, hq, (latestKey_spec _ t ht).2⟩

theorem xyz_spec (ops : List WOp) (t : DateTime) (p : Pos) :
    ((ops.foldl xyzF []).get? t = some p → ∃ pre post, ops = pre ++ .position t p :: post ∧ ∀ q, WOp.position t q ∉ post) ∧
    (∀ u q, WOp.position u q ∈ ops → u ∈ (ops.foldl xyzF []).keys) := by
  induction ops using snoc_cases with
  | h0 => exact ⟨fun h => by simp [Dict.get?] at h, fun u q h => by simp at h⟩
  | h1 l a ih =>
    obtain ⟨ih1, ih2⟩ := ih
    simp only [List.foldl_append, List.foldl_cons, List.foldl_nil]
    cases a with
    | position s q =>
      simp only [xyzF]
      constructor
      · intro h
        rw [Dict.get?_set] at h
        by_cases hs : s = t
        · rw [if_pos hs] at h; cases h
          subst hs
          exact ⟨l, [], rfl, by simp⟩
        · rw [if_neg hs] at h
          obtain ⟨pre, post, rfl, hp⟩ := ih1 h
          refine ⟨pre, post ++ [.position s q], by simp, ?_⟩
          intro q2 hm
          rcases List.mem_append.1 hm with hm | hm
          · exact hp _ hm
          · simp only [List.mem_singleton, WOp.position.injEq] at hm; exact hs hm.1.symm
      · intro u q2 hm
        rw [Dict.mem_keys_set]
        rcases List.mem_append.1 hm with hm | hm
        · exact .inr (ih2 u q2 hm)
        · simp only [List.mem_singleton, WOp.position.injEq] at hm; exact .inl hm.1
    | _ =>
      simp only [xyzF]
      constructor
      · intro h
        obtain ⟨pre, post, rfl, hp⟩ := ih1 h
        exact ⟨pre, post ++ [_], by simp; rfl, by
          intro q2 hm
          rcases List.mem_append.1 hm with hm | hm
          · exact hp _ hm
          · simp at hm⟩
      · intro u q2 hm
        rcases List.mem_append.1 hm with hm | hm
        · exact ih2 u q2 hm
        · simp at hm

theorem lbh_spec (ops : List WOp) (t : DateTime) (p : Pos) :
    ((ops.foldl lbhF []).get? t = some p → ∃ pre post, ops = pre ++ .geodetic t p :: post ∧ ∀ q, WOp.geodetic t q ∉ post) ∧
    (∀ u q, WOp.geodetic u q ∈ ops → u ∈ (ops.foldl lbhF []).keys) := by
  induction ops using snoc_cases with
  | h0 => exact ⟨fun h => by simp [Dict.get?] at h, fun u q h => by simp at h⟩
  | h1 l a ih =>
    obtain ⟨ih1, ih2⟩ := ih
    simp only [List.foldl_append, List.foldl_cons, List.foldl_nil]
    cases a with
    | geodetic s q =>
      simp only [lbhF]
      constructor
      · intro h
        rw [Dict.get?_set] at h
        by_cases hs : s = t
        · rw [if_pos hs] at h; cases h
          subst hs
          exact ⟨l, [], rfl, by simp⟩
        · rw [if_neg hs] at h
          obtain ⟨pre, post, rfl, hp⟩ := ih1 h
          refine ⟨pre, post ++ [.geodetic s q], by simp, ?_⟩
          intro q2 hm
          rcases List.mem_append.1 hm with hm | hm
          · exact hp _ hm
          · simp only [List.mem_singleton, WOp.geodetic.injEq] at hm; exact hs hm.1.symm
      · intro u q2 hm
        rw [Dict.mem_keys_set]
        rcases List.mem_append.1 hm with hm | hm
        · exact .inr (ih2 u q2 hm)
        · simp only [List.mem_singleton, WOp.geodetic.injEq] at hm; exact .inl hm.1
    | _ =>
      simp only [lbhF]
      constructor
      · intro h
        obtain ⟨pre, post, rfl, hp⟩ := ih1 h
        exact ⟨pre, post ++ [_], by simp; rfl, by
          intro q2 hm
          rcases List.mem_append.1 hm with hm | hm
          · exact hp _ hm
          · simp at hm⟩
      · intro u q2 hm
        rcases List.mem_append.1 hm with hm | hm
        · exact ih2 u q2 hm
        · simp at hm

theorem position_is {D : Date} (ops : List WOp) (hok : OpsOk D ops) (p : Pos) (h : latest (ops.foldl xyzF []) = .ok p) : PositionIs ops p := by
  obtain ⟨t, h1, h2⟩ := latest_spec _ _ h
  obtain ⟨pre, post, rfl, h4⟩ := (xyz_spec ops t p).1 h1
  refine ⟨pre, t, post, rfl, h4, ?_⟩
  intro u q hu
  have hk := (xyz_spec _ t p).2 u q hu
  have := h2 u hk
  rw [instant_eq (hok _ hu), instant_eq (hok (.position t p) (by simp))]
  exact_mod_cast this

theorem geodetic_is {D : Date} (ops : List WOp) (hok : OpsOk D ops) (p : Pos) (h : latest (ops.foldl lbhF []) = .ok p) : GeodeticIs ops p := by
  obtain ⟨t, h1, h2⟩ := latest_spec _ _ h
  obtain ⟨pre, post, rfl, h4⟩ := (lbh_spec ops t p).1 h1
  refine ⟨pre, t, post, rfl, h4, ?_⟩
  intro u q hu
  have hk := (lbh_spec _ t p).2 u q hu
  have := h2 u hk
  rw [instant_eq (hok _ hu), instant_eq (hok (.geodetic t p) (by simp))]
  exact_mod_cast this

/-! ## proof: the invariant -/

private def base (D : Date) : DateTime := ⟨D.year, D.month, D.day, 0, 0, 0, 0⟩
private def pathD (cfg : Cfg) (filename : Str) (D : Date) (sat : Str) : Str :=
  outName (outDirOf cfg.outDir filename (base D)) filename sat (base D)

private theorem osJoin_inj {d f g : Str} (hh : f.head? = g.head?) (h : osJoin d f = osJoin d g) : f = g := by
  unfold osJoin joinPath at h
  rw [hh] at h
  repeat' split at h
  all_goals simpa using h

private theorem pathD_inj (cfg : Cfg) (filename : Str) (D : Date) (s t : Str) (h : pathD cfg filename D s = pathD cfg filename D t) : s = t := by
  unfold pathD outName at h
  have h1 := osJoin_inj (by cases markerOf filename <;> simp) h
  simp only [List.append_assoc, List.cons_append] at h1
  have h2 := List.append_cancel_left h1
  simp only [List.cons.injEq, true_and] at h2
  exact List.append_cancel_right h2

private def Contents (env : WEnv) (cfg : Cfg) (filename : Str) (interval : Rat) (D : Date) (ops : List WOp) (sat : Str) (fs : FS) : Prop :=
  ∃ pre e v post d n xyz lbh texts, ops = pre ++ .write sat e v :: post ∧ recordsOf pre sat = [] ∧ lastSat pre sat = some (d, n) ∧
    latest (pre.foldl xyzF []) = .ok xyz ∧ latest (pre.foldl lbhF []) = .ok lbh ∧
    List.Forall₂ (fun (r : DateTime × List (Option FVal)) t => recordText env cfg interval r.1 r.2 = .ok (some t)) (recordsOf ops sat) texts ∧
    fs.get? (pathD cfg filename D sat) = some (comment env cfg filename interval sat e
      ⟨some d, n, some (pathD cfg filename D sat), some (pathD cfg filename D sat)⟩ xyz lbh ++ texts.flatten)

private structure Inv (env : WEnv) (cfg : Cfg) (filename : Str) (interval : Rat) (D : Date) (fs0 : FS) (ops : List WOp) (w : Writer) (fs : FS) : Prop where
  xyz : w.xyz = ops.foldl xyzF []
  lbh : w.lbh = ops.foldl lbhF []
  path : w.path = none ∨ w.path = some (outDirOf cfg.outDir filename (base D))
  sats : ∀ sat, w.satellite.get? sat = (lastSat ops sat).map fun dn =>
    ⟨some dn.1, dn.2, if recordsOf ops sat = [] then none else some (pathD cfg filename D sat),
      if recordsOf ops sat = [] then none else some (pathD cfg filename D sat)⟩
  files : ∀ sat, recordsOf ops sat ≠ [] → Contents env cfg filename interval D ops sat fs
  others : ∀ p, (∀ sat, recordsOf ops sat ≠ [] → p ≠ pathD cfg filename D sat) → fs.get? p = fs0.get? p

private theorem Contents.mono {env : WEnv} {cfg : Cfg} {filename : Str} {interval : Rat} {D : Date} {ops : List WOp} {sat : Str} {fs fs' : FS} (op : WOp)
    (h : Contents env cfg filename interval D ops sat fs) (hr : recordsOf [op] sat = [])
    (hf : fs'.get? (pathD cfg filename D sat) = fs.get? (pathD cfg filename D sat)) : Contents env cfg filename interval D (ops ++ [op]) sat fs' := by
  obtain ⟨pre, e, v, post, d, n, xyz, lbh, texts, rfl, h2, h3, h4, h5, h6, h7⟩ := h
  refine ⟨pre, e, v, post ++ [op], d, n, xyz, lbh, texts, by simp, h2, h3, h4, h5, ?_, by rw [hf, h7]⟩
  rw [recordsOf_append, hr, List.append_nil]; exact h6

private theorem inv_init (env : WEnv) (cfg : Cfg) (filename : Str) (interval : Rat) (D : Date) (fs : FS) :
    Inv env cfg filename interval D fs [] Writer.new fs :=
  ⟨rfl, rfl, .inl rfl, fun _ => rfl, fun _ h => absurd rfl h, fun _ _ => rfl⟩

private theorem lastSat_snoc (ops : List WOp) (op : WOp) (sat : Str) : lastSat (ops ++ [op]) sat = satF (lastSat ops sat) sat op := by
  simp [lastSat]

private theorem writeRecord_spec {env : WEnv} {cfg : Cfg} {interval : Rat} {sat : Str} {e : DateTime} {v : List (Option FVal)} {w : Writer} {fs : FS}
    {i : SatInfo} {f : Str} (hi : w.satellite.get? sat = some i) (hf : i.fobj = some f) :
    ((writeRecord env cfg interval sat e v w fs).w = w) ∧
    ((writeRecord env cfg interval sat e v w fs).err = none → ∃ t, recordText env cfg interval e v = .ok (some t) ∧
      (writeRecord env cfg interval sat e v w fs).fs = writeTo fs f t) ∧
    ((writeRecord env cfg interval sat e v w fs).err ≠ none → (writeRecord env cfg interval sat e v w fs).fs = fs) := by
  unfold writeRecord
  cases hr : recordText env cfg interval e v with
  | error x => simp
  | ok o =>
    cases o with
    | none => simp
    | some t => simp [hi, hf]

private theorem get?_writeTo (fs : FS) (p q t : Str) :
    (writeTo fs p t).get? q = if p = q then some ((fs.get? p).getD [] ++ t) else fs.get? q := by
  unfold writeTo; rw [Dict.get?_set]

private theorem inv_step {env : WEnv} {cfg : Cfg} {filename : Str} {interval : Rat} {D : Date} {fs0 : FS} {ops : List WOp} {w : Writer} {fs : FS}
    (h : Inv env cfg filename interval D fs0 ops w fs) (op : WOp) (hop : OpsOk D [op]) :
    ((applyOp env cfg filename interval op w fs).err = none →
      Inv env cfg filename interval D fs0 (ops ++ [op]) (applyOp env cfg filename interval op w fs).w (applyOp env cfg filename interval op w fs).fs) ∧
    ((applyOp env cfg filename interval op w fs).err ≠ none → ∃ s e v, op = .write s e v ∧
      ∀ p, p ≠ pathD cfg filename D s ∨ recordsOf ops s ≠ [] → (applyOp env cfg filename interval op w fs).fs.get? p = fs.get? p) := by
  obtain ⟨h1, h2, h3, h4, h5, h6⟩ := h
  have frs : ∀ (op : WOp) sat, recordsOf [op] sat = [] → recordsOf (ops ++ [op]) sat = recordsOf ops sat := by
    intro op sat hh; rw [recordsOf_append, hh, List.append_nil]
  cases op with
  | satellite s d n =>
    refine ⟨fun _ => ⟨by simpa [applyOp, Writer.addSatellite, xyzF] using h1, by simpa [applyOp, Writer.addSatellite, lbhF] using h2,
      by simpa [applyOp, Writer.addSatellite] using h3, ?_, ?_, ?_⟩, fun hc => absurd rfl hc⟩
    · intro sat
      rw [frs _ _ rfl, lastSat_snoc]
      simp only [applyOp, Writer.addSatellite, satF]
      rw [Dict.get?_set]
      by_cases hs : s = sat
      · subst hs
        rw [if_pos rfl, if_pos rfl, h4 s]
        cases hl : lastSat ops s with
        | none =>
          have hr : recordsOf ops s = [] := by
            by_contra hne
            obtain ⟨pre, e, v, post, d', n', xyz, lbh, texts, rfl, _, hh, _⟩ := h5 s hne
            have : ∀ (l : List WOp) a, a ≠ none → l.foldl (fun a o => satF a s o) a ≠ none := by
              intro l
              induction l with
              | nil => intro a ha; exact ha
              | cons o l ih =>
                intro a ha
                apply ih
                cases o with
                | satellite s2 d2 n2 => simp only [satF]; split; · simp
                                        · exact ha
                | _ => exact ha
            unfold lastSat at hl hh
            rw [List.foldl_append] at hl
            exact this _ _ (by rw [hh]; simp) hl
          simp [hr]
        | some dn => simp
      · rw [if_neg hs, if_neg hs, h4 sat]
    · intro sat hs
      rw [frs _ _ rfl] at hs
      exact (h5 sat hs).mono _ rfl rfl
    · intro p hp
      exact h6 p (fun sat hs => hp sat (by rw [frs _ _ rfl]; exact hs))
  | position t p =>
    refine ⟨fun _ => ⟨by simp [applyOp, Writer.updateXyz, xyzF, h1], by simpa [applyOp, Writer.updateXyz, lbhF] using h2,
      by simpa [applyOp, Writer.updateXyz] using h3, ?_, ?_, ?_⟩, fun hc => absurd rfl hc⟩
    · intro sat
      rw [frs _ _ rfl, lastSat_snoc]
      simpa [applyOp, Writer.updateXyz, satF] using h4 sat
    · intro sat hs
      rw [frs _ _ rfl] at hs
      exact (h5 sat hs).mono _ rfl rfl
    · intro p hp
      exact h6 p (fun sat hs => hp sat (by rw [frs _ _ rfl]; exact hs))
  | geodetic t p =>
    refine ⟨fun _ => ⟨by simpa [applyOp, Writer.updateLbh, xyzF] using h1, by simp [applyOp, Writer.updateLbh, lbhF, h2],
      by simpa [applyOp, Writer.updateLbh] using h3, ?_, ?_, ?_⟩, fun hc => absurd rfl hc⟩
    · intro sat
      rw [frs _ _ rfl, lastSat_snoc]
      simpa [applyOp, Writer.updateLbh, satF] using h4 sat
    · intro sat hs
      rw [frs _ _ rfl] at hs
      exact (h5 sat hs).mono _ rfl rfl
    · intro p hp
      exact h6 p (fun sat hs => hp sat (by rw [frs _ _ rfl]; exact hs))
  | write s e v =>
    have hD : (⟨e.year, e.month, e.day⟩ : Date) = D := (hop _ (List.mem_singleton.2 rfl)).2.2
    have e1 : outDirOf cfg.outDir filename e = outDirOf cfg.outDir filename (base D) := by subst hD; rfl
    have e2 : ∀ p, outName p filename s e = outName p filename s (base D) := by subst hD; intro p; rfl
    have e3 : w.path.getD (outDirOf cfg.outDir filename e) = outDirOf cfg.outDir filename (base D) := by
      rcases h3 with h | h <;> rw [h]
      · exact e1
      · rfl
    have rs : ∀ sat, recordsOf (ops ++ [.write s e v]) sat = if s = sat then recordsOf ops sat ++ [(e, v)] else recordsOf ops sat := by
      intro sat; rw [recordsOf_append]; simp only [recordsOf]; split <;> simp
    have inj := pathD_inj cfg filename D
    simp only [applyOp, writeData, e3, e2]
    have hpath : outName (outDirOf cfg.outDir filename (base D)) filename s (base D) = pathD cfg filename D s := rfl
    rw [hpath]
    cases hw : w.satellite.get? s with
    | none => exact ⟨fun hc => by simp at hc, fun _ => ⟨s, e, v, rfl, fun p _ => rfl⟩⟩
    | some i =>
    have hi := h4 s
    rw [hw] at hi
    cases hls : lastSat ops s with
    | none => rw [hls] at hi; cases hi
    | some dn =>
    obtain ⟨d, n⟩ := dn
    rw [hls] at hi
    simp only [Option.map_some, Option.some.injEq] at hi
    -- the file after the record has been appended
    have finish : ∀ (w' : Writer) (fs' : FS) (t hd : Str) (texts : List Str), recordText env cfg interval e v = .ok (some t) →
        w'.xyz = w.xyz → w'.lbh = w.lbh → w'.path = some (outDirOf cfg.outDir filename (base D)) →
        (∀ sat, sat ≠ s → w'.satellite.get? sat = w.satellite.get? sat) →
        w'.satellite.get? s = some ⟨some d, n, some (pathD cfg filename D s), some (pathD cfg filename D s)⟩ →
        (∀ p, p ≠ pathD cfg filename D s → fs'.get? p = fs.get? p) →
        (fs'.get? (pathD cfg filename D s) = some (hd ++ texts.flatten)) →
        (∃ pre e0 v0 post d0 n0 xyz lbh, ops ++ [.write s e v] = pre ++ .write s e0 v0 :: post ∧ recordsOf pre s = [] ∧ lastSat pre s = some (d0, n0) ∧
          latest (pre.foldl xyzF []) = .ok xyz ∧ latest (pre.foldl lbhF []) = .ok lbh ∧
          hd = comment env cfg filename interval s e0 ⟨some d0, n0, some (pathD cfg filename D s), some (pathD cfg filename D s)⟩ xyz lbh) →
        List.Forall₂ (fun (r : DateTime × List (Option FVal)) t => recordText env cfg interval r.1 r.2 = .ok (some t)) (recordsOf ops s) texts →
        Inv env cfg filename interval D fs0 (ops ++ [.write s e v]) w' (writeTo fs' (pathD cfg filename D s) t) := by
      intro w' fs' t hd texts ht hx hl hp hsat hsat2 hoth hfile hpre hall
      refine ⟨by simp [hx, h1, xyzF], by simp [hl, h2, lbhF], .inr hp, ?_, ?_, ?_⟩
      · intro sat
        rw [lastSat_snoc]; simp only [satF]
        by_cases hs : s = sat
        · subst hs
          rw [hsat2, hls, rs s, if_pos rfl]; simp
        · rw [hsat sat (fun h => hs h.symm), h4 sat, rs sat, if_neg hs]
      · intro sat hs
        by_cases hss : s = sat
        · subst hss
          obtain ⟨pre, e0, v0, post, d0, n0, xyz, lbh, g1, g2, g3, g4, g5, g6⟩ := hpre
          refine ⟨pre, e0, v0, post, d0, n0, xyz, lbh, texts ++ [t], g1, g2, g3, g4, g5, ?_, ?_⟩
          · rw [rs s, if_pos rfl]
            exact List.rel_append hall (.cons ht .nil)
          · rw [get?_writeTo, if_pos rfl, hfile, g6]; simp
        · rw [rs sat, if_neg hss] at hs
          refine (h5 sat hs).mono _ (by simp [recordsOf, hss]) ?_
          have hne : pathD cfg filename D s ≠ pathD cfg filename D sat := fun h => hss (inj _ _ h)
          rw [get?_writeTo, if_neg hne, hoth _ (fun h => hne h.symm)]
      · intro p hp
        have hne : p ≠ pathD cfg filename D s := hp s (by rw [rs s, if_pos rfl]; simp)
        rw [get?_writeTo, if_neg (fun h => hne h.symm), hoth p hne]
        exact h6 p (fun sat hs => hp sat (by rw [rs sat]; split; · simp
                                             · exact hs))
    by_cases hrec : recordsOf ops s = []
    · -- the first record
      rw [if_pos hrec] at hi
      subst hi
      simp only
      have hopen : ∀ (x y : Pos), latest w.xyz = .ok x → latest w.lbh = .ok y →
          openOut env cfg filename interval s e (pathD cfg filename D s) { w with path := some (outDirOf cfg.outDir filename (base D)) } fs =
          ⟨({ w with path := some (outDirOf cfg.outDir filename (base D)) } : Writer).setFile s (pathD cfg filename D s),
            writeTo (fs.set (pathD cfg filename D s) []) (pathD cfg filename D s) (comment env cfg filename interval s e
              ⟨some d, n, some (pathD cfg filename D s), some (pathD cfg filename D s)⟩ x y), none⟩ := by
        intro x y hx hy
        simp only [openOut, Writer.setFile, hx, hy, hw, Option.getD_some]
        rw [Dict.get?_set, if_pos rfl]; rfl
      have hofs : ∀ p, p ≠ pathD cfg filename D s →
          (openOut env cfg filename interval s e (pathD cfg filename D s) { w with path := some (outDirOf cfg.outDir filename (base D)) } fs).fs.get? p = fs.get? p := by
        intro p hp
        unfold openOut
        simp only
        split
        · simp only; rw [Dict.get?_set, if_neg (fun h => hp h.symm)]
        · split
          · simp only; rw [Dict.get?_set, if_neg (fun h => hp h.symm)]
          · simp only; rw [get?_writeTo, if_neg (fun h => hp h.symm), Dict.get?_set, if_neg (fun h => hp h.symm)]
      have hosat : (openOut env cfg filename interval s e (pathD cfg filename D s) { w with path := some (outDirOf cfg.outDir filename (base D)) } fs).w =
          ({ w with path := some (outDirOf cfg.outDir filename (base D)) } : Writer).setFile s (pathD cfg filename D s) := by
        unfold openOut
        simp only
        split
        · rfl
        · split <;> rfl
      have hws : (({ w with path := some (outDirOf cfg.outDir filename (base D)) } : Writer).setFile s (pathD cfg filename D s)).satellite.get? s =
          some ⟨some d, n, some (pathD cfg filename D s), some (pathD cfg filename D s)⟩ := by
        simp only [Writer.setFile, hw, Option.getD_some]
        rw [Dict.get?_set, if_pos rfl]
      have hwo : ∀ sat, sat ≠ s → (({ w with path := some (outDirOf cfg.outDir filename (base D)) } : Writer).setFile s (pathD cfg filename D s)).satellite.get? sat =
          w.satellite.get? sat := by
        intro sat hs
        simp only [Writer.setFile]
        rw [Dict.get?_set, if_neg (fun h => hs h.symm)]
      cases hoe : (openOut env cfg filename interval s e (pathD cfg filename D s) { w with path := some (outDirOf cfg.outDir filename (base D)) } fs).err with
      | some x =>
        refine ⟨fun hc => by simp at hc, fun _ => ⟨s, e, v, rfl, ?_⟩⟩
        intro p hp
        exact hofs p (hp.resolve_right (fun h => h hrec))
      | none =>
        simp only
        have hwr := writeRecord_spec (env := env) (cfg := cfg) (interval := interval) (e := e) (v := v)
          (fs := (openOut env cfg filename interval s e (pathD cfg filename D s) { w with path := some (outDirOf cfg.outDir filename (base D)) } fs).fs)
          (w := (openOut env cfg filename interval s e (pathD cfg filename D s) { w with path := some (outDirOf cfg.outDir filename (base D)) } fs).w)
          (sat := s) (i := ⟨some d, n, some (pathD cfg filename D s), some (pathD cfg filename D s)⟩) (f := pathD cfg filename D s) (by rw [hosat]; exact hws) rfl
        refine ⟨?_, ?_⟩
        · intro hc
          obtain ⟨t, ht, hfs⟩ := hwr.2.1 hc
          rw [hwr.1, hfs]
          obtain ⟨x, hx⟩ : ∃ x, latest w.xyz = .ok x := by
            unfold openOut at hoe
            simp only [Writer.setFile] at hoe
            cases hx : latest w.xyz with
            | ok x => exact ⟨x, rfl⟩
            | error e => simp [hx] at hoe
          obtain ⟨y, hy⟩ : ∃ y, latest w.lbh = .ok y := by
            unfold openOut at hoe
            simp only [Writer.setFile, hx] at hoe
            cases hy : latest w.lbh with
            | ok y => exact ⟨y, rfl⟩
            | error e => simp [hy] at hoe
          have ho := hopen x y hx hy
          refine finish _ _ t (comment env cfg filename interval s e ⟨some d, n, some (pathD cfg filename D s), some (pathD cfg filename D s)⟩ x y) [] ht
            (by rw [hosat]; rfl) (by rw [hosat]; rfl) (by rw [hosat]; rfl) (fun sat hs => by rw [hosat]; exact hwo sat hs) (by rw [hosat]; exact hws)
            hofs ?_ ⟨ops, e, v, [], d, n, x, y, rfl, hrec, hls, by rw [← h1]; exact hx, by rw [← h2]; exact hy, rfl⟩ (by rw [hrec]; exact .nil)
          rw [ho]
          simp only
          rw [get?_writeTo, if_pos rfl, Dict.get?_set, if_pos rfl]; simp
        · intro hc
          refine ⟨s, e, v, rfl, ?_⟩
          intro p hp
          rw [hwr.2.2 hc]
          exact hofs p (hp.resolve_right (fun h => h hrec))
    · -- a further record
      rw [if_neg hrec] at hi
      subst hi
      simp only
      have hwr := writeRecord_spec (env := env) (cfg := cfg) (interval := interval) (e := e) (v := v) (fs := fs)
          (w := { w with path := some (outDirOf cfg.outDir filename (base D)) })
          (sat := s) (i := ⟨some d, n, some (pathD cfg filename D s), some (pathD cfg filename D s)⟩) (f := pathD cfg filename D s) hw rfl
      refine ⟨?_, ?_⟩
      · intro hc
        obtain ⟨t, ht, hfs⟩ := hwr.2.1 hc
        rw [hwr.1, hfs]
        obtain ⟨pre, e0, v0, post, d0, n0, x, y, texts, g1, g2, g3, g4, g5, g6, g7⟩ := h5 s hrec
        exact finish _ _ t _ texts ht rfl rfl rfl (fun _ _ => rfl) hw (fun _ _ => rfl) g7
          ⟨pre, e0, v0, post ++ [.write s e v], d0, n0, x, y, by rw [g1]; simp, g2, g3, g4, g5, rfl⟩ g6
      · intro hc
        exact ⟨s, e, v, rfl, fun p _ => by rw [hwr.2.2 hc]⟩

private theorem inv_run {env : WEnv} {cfg : Cfg} {filename : Str} {interval : Rat} {D : Date} {fs0 : FS} (ops : List WOp) :
    ∀ {done : List WOp} {w : Writer} {fs : FS}, Inv env cfg filename interval D fs0 done w fs → OpsOk D ops →
    ((runOps env cfg filename interval ops w fs).err = none →
      Inv env cfg filename interval D fs0 (done ++ ops) (runOps env cfg filename interval ops w fs).w (runOps env cfg filename interval ops w fs).fs) ∧
    ((runOps env cfg filename interval ops w fs).err ≠ none → ∃ ok s e v rest w' fs', ops = ok ++ .write s e v :: rest ∧
      (runOps env cfg filename interval ok w fs = ⟨w', fs', none⟩ ∧
        (applyOp env cfg filename interval (.write s e v) w' fs').err = (runOps env cfg filename interval ops w fs).err) ∧
      Inv env cfg filename interval D fs0 (done ++ ok) w' fs' ∧
      ∀ p, p ≠ pathD cfg filename D s ∨ recordsOf (done ++ ok) s ≠ [] → (runOps env cfg filename interval ops w fs).fs.get? p = fs'.get? p) := by
  induction ops with
  | nil => intro done w fs h _; exact ⟨fun _ => by simpa [runOps] using h, fun hc => absurd rfl hc⟩
  | cons op ops ih =>
    intro done w fs h hok
    have hst := inv_step h op (fun o ho => hok o (by simp at ho; simp [ho]))
    simp only [runOps]
    cases he : (applyOp env cfg filename interval op w fs).err with
    | some x =>
      refine ⟨fun hc => by simp at hc, fun _ => ?_⟩
      obtain ⟨s, e, v, rfl, hp⟩ := hst.2 (by rw [he]; simp)
      exact ⟨[], s, e, v, ops, w, fs, rfl, ⟨rfl, by rw [he]⟩, by simpa using h, by simpa using hp⟩
    | none =>
      have h' := ih (hst.1 he) (fun o ho => hok o (by simp [ho]))
      simp only
      refine ⟨fun hc => by simpa using h'.1 hc, fun hc => ?_⟩
      obtain ⟨ok, s, e, v, rest, w', fs', h1, h0, h2, h3⟩ := h'.2 hc
      refine ⟨op :: ok, s, e, v, rest, w', fs', by rw [h1]; rfl, ⟨by simp only [runOps, he]; exact h0.1, h0.2⟩, by simpa using h2, by simpa using h3⟩

/-! ## C52 -/

private theorem strf_eq {t : DateTime} (h : Legal t) (hy : 1000 ≤ t.year) :
    strfJ t = dig3 (doy t) ∧ strfY t = dig4 t.year ∧ (strfY t).drop 2 = dig2 t.year := by
  obtain ⟨e1, e2, e3⟩ := yday_eq h
  have hj : strfJ t = dig3 (doy t) := by unfold strfJ; rw [e1, zfill3 (by omega)]
  have h9 : t.year ≤ 9999 := h.1.2.1
  have hY : strfY t = dig4 t.year := by unfold strfY; rw [natStr4 hy (by omega)]
  exact ⟨hj, hY, by rw [hY]; rfl⟩

private theorem path_eq (outDir filename name sat : Str) (t : DateTime) (h : Legal t) (hy : 1000 ≤ t.year)
    (hn : LastComponent filename name) (hname : name ≠ []) (ho : outDir ≠ []) (ho2 : outDir.getLast? ≠ some '/') :
    outName (outDirOf outDir filename t) filename sat t = outputPath outDir (name.take 4) sat t := by
  obtain ⟨e1, e2, e3⟩ := strf_eq h hy
  have hm : markerOf filename = name.take 4 := by unfold markerOf; rw [Verif.Proofs.basename_of_last hn]
  have hdig : ∀ n, dig n ≠ '/' → True := fun _ _ => trivial
  have dne : ∀ n : Nat, n < 10 → dig n ≠ '/' := by
    intro n hn
    unfold dig
    interval_cases n <;> decide
  have hnos : ∀ c ∈ name.take 4, c ≠ '/' := by
    intro c hc he
    exact hn.1 (he ▸ List.mem_of_mem_take hc)
  have last_ne : ∀ (a b : Str), b ≠ [] → (∀ c ∈ b, c ≠ '/') → (a ++ b).getLast? ≠ some '/' := by
    intro a b hb hc he
    rw [List.getLast?_append_of_ne_nil _ hb] at he
    exact hc '/' (List.mem_of_getLast? he) rfl
  have d4 : ∀ c ∈ dig4 t.year, c ≠ '/' := by
    intro c hc
    simp only [dig4, dig3, dig2, List.mem_cons, List.not_mem_nil, or_false] at hc
    rcases hc with rfl | rfl | rfl | rfl <;> exact dne _ (by omega)
  have d3 : ∀ c ∈ dig3 (doy t), c ≠ '/' := by
    intro c hc
    simp only [dig3, dig2, List.mem_cons, List.not_mem_nil, or_false] at hc
    rcases hc with rfl | rfl | rfl <;> exact dne _ (by omega)
  have join : ∀ d f : Str, d ≠ [] → d.getLast? ≠ some '/' → f.head? ≠ some '/' → osJoin d f = d ++ '/' :: f := by
    intro d f h1 h2 h3
    unfold osJoin joinPath
    rw [if_neg h3, if_neg h1, if_neg h2]
  have head_ne : ∀ f : Str, (∀ c ∈ f, c ≠ '/') → f.head? ≠ some '/' := by
    intro f hf he
    cases f with
    | nil => cases he
    | cons c f => simp only [List.head?_cons, Option.some.injEq] at he; exact hf c (by simp) he
  have j1 : osJoin outDir (dig4 t.year) = outDir ++ '/' :: dig4 t.year := join _ _ ho ho2 (head_ne _ d4)
  have j2 : osJoin (outDir ++ '/' :: dig4 t.year) (dig3 (doy t)) = (outDir ++ '/' :: dig4 t.year) ++ '/' :: dig3 (doy t) :=
    join _ _ (by simp) (by
      have : outDir ++ '/' :: dig4 t.year = (outDir ++ ['/']) ++ dig4 t.year := by simp
      rw [this]; exact last_ne _ _ (by simp [dig4]) d4) (head_ne _ d3)
  have j3 : osJoin ((outDir ++ '/' :: dig4 t.year) ++ '/' :: dig3 (doy t)) (name.take 4) =
      ((outDir ++ '/' :: dig4 t.year) ++ '/' :: dig3 (doy t)) ++ '/' :: name.take 4 :=
    join _ _ (by simp) (by
      have : outDir ++ '/' :: dig4 t.year ++ '/' :: dig3 (doy t) = (outDir ++ '/' :: dig4 t.year ++ ['/']) ++ dig3 (doy t) := by simp
      rw [this]; exact last_ne _ _ (by simp [dig3]) d3) (head_ne _ hnos)
  unfold outName outDirOf outputPath
  rw [e1, e2, hm, j1, j2, j3]
  have e3' : (dig4 t.year).drop 2 = dig2 t.year := by rw [← e2]; exact e3
  rw [e3']
  have hne : name.take 4 ≠ [] := by cases name <;> simp at hname ⊢
  rw [join _ _ (by simp) (by
      have : outDir ++ '/' :: dig4 t.year ++ '/' :: dig3 (doy t) ++ '/' :: name.take 4 = (outDir ++ '/' :: dig4 t.year ++ '/' :: dig3 (doy t) ++ ['/']) ++ name.take 4 := by simp
      rw [this]; exact last_ne _ _ hne hnos) (by
        intro he
        cases hx : name.take 4 with
        | nil => exact hne hx
        | cons c l =>
          rw [hx] at he
          simp only [List.cons_append, List.head?_cons, Option.some.injEq] at he
          exact hnos c (by rw [hx]; simp) he)]

/-- All records of a satellite go to `outDir/YYYY/DDD/site/site_SAT_DDD_YY.dat` with the date of the record, where `site` is the beginning of the name of the
observation file: after the calls, the record is in that file; -/
theorem C52_path (env : WEnv) (cfg : Cfg) (filename name : Str) (hn : LastComponent filename name) (hname : name ≠ []) (ho : cfg.outDir ≠ [])
    (ho2 : cfg.outDir.getLast? ≠ some '/') (interval : Rat) (D : Date) (ops : List WOp) (hok : OpsOk D ops) (fs : FS)
    (hrun : (runOps env cfg filename interval ops Writer.new fs).err = none) (sat : Str) (e : DateTime) (v : List (Option FVal)) (hw : WOp.write sat e v ∈ ops) :
    ∃ text a b, recordText env cfg interval e v = .ok (some text) ∧
      (runOps env cfg filename interval ops Writer.new fs).fs.get? (outputPath cfg.outDir (name.take 4) sat e) = some (a ++ text ++ b) := by
  have hI := (inv_run ops (inv_init env cfg filename interval D fs) hok).1 hrun
  have hr : (e, v) ∈ recordsOf ops sat := by
    clear hI hrun hok
    induction ops with
    | nil => cases hw
    | cons o ops ih =>
      rcases List.mem_cons.1 hw with rfl | hw
      · simp [recordsOf]
      · have := ih hw
        cases o with
        | write s e' v' => simp only [recordsOf]; split
                           · exact List.mem_cons_of_mem _ this
                           · exact this
        | _ => exact this
  obtain ⟨hl, hy, hD⟩ := hok _ hw
  have hp : pathD cfg filename D sat = outputPath cfg.outDir (name.take 4) sat e := by
    rw [← path_eq cfg.outDir filename name sat e hl hy hn hname ho ho2]
    subst hD; rfl
  simp only [List.nil_append] at hI
  obtain ⟨pre, e0, v0, post, d, n, xyz, lbh, texts, g1, g2, g3, g4, g5, g6, g7⟩ := hI.files sat (List.ne_nil_of_mem hr)
  rw [hp] at g7
  clear g1
  have key : ∀ (rs : List (DateTime × List (Option FVal))) (ts : List Str), (e, v) ∈ rs →
      List.Forall₂ (fun (r : DateTime × List (Option FVal)) t => recordText env cfg interval r.1 r.2 = .ok (some t)) rs ts →
      ∃ text a b, recordText env cfg interval e v = .ok (some text) ∧ ts.flatten = a ++ text ++ b := by
    intro rs ts hm hf
    induction hf with
    | nil => cases hm
    | @cons r t rs ts h1 h2 ih =>
      rcases List.mem_cons.1 hm with rfl | hm
      · exact ⟨t, [], ts.flatten, h1, by simp⟩
      · obtain ⟨text, a, b, h3, h4⟩ := ih hm
        exact ⟨text, t ++ a, b, h3, by simp [h4]⟩
  obtain ⟨text, a, b, h1, h2⟩ := key _ _ hr g6
  rw [h2] at g7
  generalize comment env cfg filename interval sat e0 _ xyz lbh = hd at g7
  exact ⟨text, hd ++ a, b, h1, by rw [g7]; simp only [List.append_assoc]⟩

/-- different satellites use different files. -/
theorem C52_distinct (outDir site s1 s2 : Str) (t : DateTime) (h : outputPath outDir site s1 t = outputPath outDir site s2 t) : s1 = s2 := by
  unfold outputPath at h
  simp only [List.append_assoc, List.cons_append] at h
  have h1 := List.append_cancel_left h
  simp only [List.cons.injEq, true_and, List.append_cancel_left_eq] at h1
  exact List.append_cancel_right h1

/-! ## C53 -/

private theorem dropMarks_append (b : Str) : ∀ a : Str, (a.getLast? ≠ some 'u' ∨ b.head? ≠ some '\'') → dropMarks (a ++ b) = dropMarks a ++ dropMarks b
  | [], _ => rfl
  | c :: a, h => by
    have h' : a.getLast? ≠ some 'u' ∨ b.head? ≠ some '\'' := by
      rcases h with h | h
      · cases a with
        | nil => exact .inl (by simp)
        | cons d a => exact .inl (by rwa [List.getLast?_cons_cons] at h)
      · exact .inr h
    have hh : (c = 'u' ∧ (a ++ b).head? = some '\'') ↔ (c = 'u' ∧ a.head? = some '\'') := by
      cases a with
      | nil =>
        simp only [List.nil_append, List.head?_nil, reduceCtorEq, and_false, iff_false, not_and]
        rintro rfl
        rcases h with h | h
        · simp at h
        · exact h
      | cons d a => rfl
    simp only [List.cons_append, dropMarks, hh]
    rw [dropMarks_append b a h']
    split <;> rfl

private theorem dropMarks_name : ∀ n : Str, dropMarks (n ++ ['\'']) = bareName n
  | [] => by decide
  | c :: s => by
    have hh : (s ++ ['\'']).head? = some '\'' ↔ (s = [] ∨ s.head? = some '\'') := by
      cases s <;> simp
    simp only [List.cons_append, dropMarks, bareName, hh]
    rw [dropMarks_name s]

private theorem dropMarks_quoted (n rest : Str) : dropMarks ('\'' :: (n ++ ['\'']) ++ rest) = bareName n ++ dropMarks rest := by
  have h1 : dropMarks ('\'' :: (n ++ ['\''])) = bareName n := by
    rw [dropMarks, if_pos (.inr (.inr (.inl rfl))), dropMarks_name]
  rw [dropMarks_append _ _ (.inl (by rw [← List.cons_append, List.getLast?_append]; simp)), h1]

private theorem dropMarks_list (rest : Str) : ∀ names : List Str, names ≠ [] →
    dropMarks (List.intercalate (c% ", ") (names.map fun n => '\'' :: (n ++ ['\''])) ++ rest) = List.intercalate (c% ", ") (names.map bareName) ++ dropMarks rest
  | [], h => absurd rfl h
  | [n], _ => by
    simp only [List.map_cons, List.map_nil, List.intercalate_singleton]
    exact dropMarks_quoted n rest
  | n :: m :: l, _ => by
    have ih := dropMarks_list rest (m :: l) (by simp)
    simp only [List.map_cons, List.intercalate_cons_cons] at ih ⊢
    rw [List.append_assoc, List.append_assoc, dropMarks_quoted]
    have h2 : ∀ x : Str, dropMarks ((c% ", ") ++ x) = (c% ", ") ++ dropMarks x := fun x => rfl
    rw [h2, ih]
    simp only [List.append_assoc]

private theorem columns_eq (names : List Str) : dropMarks (tupleStr names) = columnsText names := by
  have h0 : ∀ x : Str, dropMarks ('(' :: x) = dropMarks x := fun x => by rw [dropMarks, if_pos (.inl rfl)]
  unfold tupleStr
  rw [List.cons_append, List.cons_append, h0]
  match names with
  | [] => decide
  | [n] =>
    rw [List.append_assoc, dropMarks_list _ [n] (by simp)]
    simp only [List.map_cons, List.map_nil, List.intercalate_singleton, columnsText]
    rfl
  | n :: m :: l =>
    rw [List.append_assoc, dropMarks_list _ (n :: m :: l) (by simp)]
    have : dropMarks ((if (n :: m :: l).length = 1 then [','] else []) ++ [')']) = [] := by
      rw [if_neg (by simp)]; decide
    rw [this, List.append_nil]; rfl

set_option maxRecDepth 4000 in
private theorem comment_eq (env : WEnv) (cfg : Cfg) (filename name : Str) (hn : LastComponent filename name) (interval : Rat) (sat : Str) (e : DateTime) (d : Str)
    (n f g : Option Str) (xyz lbh : Pos) :
    comment env cfg filename interval sat e ⟨some d, n, f, g⟩ xyz lbh =
      headerText (env.now sat e) (filename ++ (c% ", ") ++ (if n = none ∨ n = some [] then c% "None" else n.getD [])) d (env.repr interval)
        (samplingText env cfg interval) (name.take 4) (posText env.repr lbh) (posText env.repr xyz) cfg.datetimeFormat
        (columnsText cfg.recFields) cfg.recFortranFormat := by
  have hm : markerOf filename = name.take 4 := by unfold markerOf; rw [Verif.Proofs.basename_of_last hn]
  unfold comment headerText posText
  rw [hm, columns_eq]
  rcases n with _ | _ | ⟨c, s⟩ <;>
    simp only [optText, List.map_cons, List.map_nil, List.flatten_cons, List.flatten_nil, List.append_assoc, List.cons_append, List.nil_append,
      List.append_nil, reduceCtorEq, or_false, or_true, if_true, if_false, Option.some.injEq, Option.getD_some, or_self]

/-- After any sequence of calls that raises no exception the file of each satellite with a record consists of one header — made when the first record was
written — and the formatted records of that satellite in order, and nothing else, whatever the file contained before; -/
theorem C53_contents (env : WEnv) (cfg : Cfg) (filename name : Str) (hn : LastComponent filename name) (hname : name ≠ []) (ho : cfg.outDir ≠ [])
    (ho2 : cfg.outDir.getLast? ≠ some '/') (interval : Rat) (D : Date) (ops : List WOp) (hok : OpsOk D ops) (fs : FS)
    (hrun : (runOps env cfg filename interval ops Writer.new fs).err = none) (sat : Str) (hsat : recordsOf ops sat ≠ []) :
    ∃ pre e v post satDef nav xyz lbh texts, ops = pre ++ .write sat e v :: post ∧ recordsOf pre sat = [] ∧
      SatelliteIs pre sat satDef nav ∧ PositionIs pre xyz ∧ GeodeticIs pre lbh ∧
      List.Forall₂ (fun (r : DateTime × List (Option FVal)) t => recordText env cfg interval r.1 r.2 = .ok (some t)) (recordsOf ops sat) texts ∧
      (runOps env cfg filename interval ops Writer.new fs).fs.get? (outputPath cfg.outDir (name.take 4) sat e) = some (
        headerText (env.now sat e) (filename ++ (c% ", ") ++ (if nav = none ∨ nav = some [] then c% "None" else nav.getD [])) satDef (env.repr interval)
          (samplingText env cfg interval) (name.take 4) (posText env.repr lbh) (posText env.repr xyz) cfg.datetimeFormat
          (columnsText cfg.recFields) cfg.recFortranFormat ++ texts.flatten) := by
  have hI := (inv_run ops (inv_init env cfg filename interval D fs) hok).1 hrun
  simp only [List.nil_append] at hI
  obtain ⟨pre, e, v, post, d, n, xyz, lbh, texts, rfl, g2, g3, g4, g5, g6, g7⟩ := hI.files sat hsat
  have hokpre : OpsOk D pre := fun o ho => hok o (by simp [ho])
  refine ⟨pre, e, v, post, d, n, xyz, lbh, texts, rfl, g2, lastSat_spec _ _ _ _ g3, position_is pre hokpre _ g4, geodetic_is pre hokpre _ g5, g6, ?_⟩
  obtain ⟨hl, hy, hD⟩ := hok (.write sat e v) (by simp)
  have hp : pathD cfg filename D sat = outputPath cfg.outDir (name.take 4) sat e := by
    rw [← path_eq cfg.outDir filename name sat e hl hy hn hname ho ho2]
    subst hD; rfl
  rw [comment_eq env cfg filename name hn] at g7
  rw [← hp]; exact g7

/-- no other file is touched, whether or not an exception stops the sequence; -/
theorem C53_elsewhere (env : WEnv) (cfg : Cfg) (filename name : Str) (hn : LastComponent filename name) (hname : name ≠ []) (ho : cfg.outDir ≠ [])
    (ho2 : cfg.outDir.getLast? ≠ some '/') (interval : Rat) (D : Date) (ops : List WOp) (hok : OpsOk D ops) (fs : FS) (path : Str)
    (hp : ∀ sat e v, WOp.write sat e v ∈ ops → path ≠ outputPath cfg.outDir (name.take 4) sat e) :
    (runOps env cfg filename interval ops Writer.new fs).fs.get? path = fs.get? path := by
  have hpath : ∀ sat e v, WOp.write sat e v ∈ ops → path ≠ pathD cfg filename D sat := by
    intro sat e v hm
    obtain ⟨hl, hy, hD⟩ := hok _ hm
    have h := hp sat e v hm
    rw [← path_eq cfg.outDir filename name sat e hl hy hn hname ho ho2] at h
    subst hD; exact h
  have key : ∀ ok w' fs', (∀ op ∈ ok, op ∈ ops) → Inv env cfg filename interval D fs ok w' fs' → fs'.get? path = fs.get? path := by
    intro ok w' fs' hsub hI
    refine hI.others path ?_
    intro sat hs he
    obtain ⟨pre, e, v, post, d, n, xyz, lbh, texts, rfl, -⟩ := hI.files sat hs
    exact hpath sat e v (hsub _ (by simp)) he
  cases hrun : (runOps env cfg filename interval ops Writer.new fs).err with
  | none =>
    have hI := (inv_run ops (inv_init env cfg filename interval D fs) hok).1 hrun
    simp only [List.nil_append] at hI
    exact key ops _ _ (fun _ h => h) hI
  | some er =>
    obtain ⟨ok, s, e, v, rest, w', fs', h1, _, h2, h3⟩ := (inv_run ops (inv_init env cfg filename interval D fs) hok).2 (by rw [hrun]; simp)
    simp only [List.nil_append] at h2 h3
    rw [h3 path (.inl (hpath s e v (by rw [h1]; simp)))]
    exact key ok w' fs' (fun op ho => by rw [h1]; simp [ho]) h2

private theorem runOps_last {env : WEnv} {cfg : Cfg} {filename : Str} {interval : Rat} (ok : List WOp) (op : WOp) :
    ∀ (w : Writer) (fs : FS), (runOps env cfg filename interval ok w fs).err = none →
      (runOps env cfg filename interval (ok ++ [op]) w fs).err =
        (applyOp env cfg filename interval op (runOps env cfg filename interval ok w fs).w (runOps env cfg filename interval ok w fs).fs).err := by
  induction ok with
  | nil =>
    intro w fs _
    simp only [List.nil_append, runOps]
    cases (applyOp env cfg filename interval op w fs).err <;> rfl
  | cons o ok ih =>
    intro w fs h
    simp only [List.cons_append, runOps] at h ⊢
    cases he : (applyOp env cfg filename interval o w fs).err with
    | some x => rw [he] at h; simp at h
    | none => rw [he] at h; simp only at h ⊢; exact ih _ _ h


/-- and if an exception stops the sequence (at any call), everything written before it is in place: the file of every satellite with a completed record has
the contents of the sequence up to the failing call. -/
theorem C53_abort (env : WEnv) (cfg : Cfg) (filename name : Str) (hn : LastComponent filename name) (hname : name ≠ []) (ho : cfg.outDir ≠ [])
    (ho2 : cfg.outDir.getLast? ≠ some '/') (interval : Rat) (D : Date) (ops : List WOp) (hok : OpsOk D ops) (fs : FS)
    (hrun : (runOps env cfg filename interval ops Writer.new fs).err ≠ none) :
    ∃ ok s e v rest, ops = ok ++ .write s e v :: rest ∧ (runOps env cfg filename interval ok Writer.new fs).err = none ∧
    (runOps env cfg filename interval (ok ++ [.write s e v]) Writer.new fs).err = (runOps env cfg filename interval ops Writer.new fs).err ∧
    ∀ sat, recordsOf ok sat ≠ [] →
    ∃ pre e v post satDef nav xyz lbh texts, ok = pre ++ .write sat e v :: post ∧ recordsOf pre sat = [] ∧
      SatelliteIs pre sat satDef nav ∧ PositionIs pre xyz ∧ GeodeticIs pre lbh ∧
      List.Forall₂ (fun (r : DateTime × List (Option FVal)) t => recordText env cfg interval r.1 r.2 = .ok (some t)) (recordsOf ok sat) texts ∧
      (runOps env cfg filename interval ops Writer.new fs).fs.get? (outputPath cfg.outDir (name.take 4) sat e) = some (
        headerText (env.now sat e) (filename ++ (c% ", ") ++ (if nav = none ∨ nav = some [] then c% "None" else nav.getD [])) satDef (env.repr interval)
          (samplingText env cfg interval) (name.take 4) (posText env.repr lbh) (posText env.repr xyz) cfg.datetimeFormat
          (columnsText cfg.recFields) cfg.recFortranFormat ++ texts.flatten) := by
  obtain ⟨ok, s, e', v', rest, w', fs', h1, h0, hI, h3⟩ := (inv_run ops (inv_init env cfg filename interval D fs) hok).2 hrun
  simp only [List.nil_append] at hI h3
  refine ⟨ok, s, e', v', rest, h1, by rw [h0.1], ?_, ?_⟩
  · rw [runOps_last ok _ _ _ (by rw [h0.1]), h0.1, h0.2]
  intro sat hs
  obtain ⟨pre, e, v, post, d, n, xyz, lbh, texts, rfl, g2, g3, g4, g5, g6, g7⟩ := hI.files sat hs
  have hok' : OpsOk D pre := fun o ho => hok o (by rw [h1]; simp [ho])
  refine ⟨pre, e, v, post, d, n, xyz, lbh, texts, rfl, g2, lastSat_spec _ _ _ _ g3, position_is pre hok' _ g4, geodetic_is pre hok' _ g5, g6, ?_⟩
  obtain ⟨hl, hy, hD⟩ := hok (.write sat e v) (by rw [h1]; simp)
  have hp : pathD cfg filename D sat = outputPath cfg.outDir (name.take 4) sat e := by
    rw [← path_eq cfg.outDir filename name sat e hl hy hn hname ho ho2]
    subst hD; rfl
  rw [comment_eq env cfg filename name hn] at g7
  rw [← hp, h3 _ ?_]
  · exact g7
  · by_cases hss : sat = s
    · subst hss; exact .inr hs
    · exact .inl (fun h => hss (pathD_inj cfg filename D _ _ h))

private theorem first_write {sat : Str} {pre pre' post post' a b : List WOp} {e e' : DateTime} {v v' : List (Option FVal)}
    (h : a = pre ++ .write sat e v :: post) (h' : a ++ b = pre' ++ .write sat e' v' :: post') (hp : recordsOf pre sat = []) (hp' : recordsOf pre' sat = []) :
    pre = pre' ∧ e = e' ∧ v = v' := by
  subst h
  rw [List.append_assoc, List.cons_append] at h'
  generalize post ++ b = t at h'
  induction pre generalizing pre' with
  | nil =>
    cases pre' with
    | nil =>
      simp only [List.nil_append, List.cons.injEq, WOp.write.injEq, true_and] at h'
      exact ⟨rfl, h'.1.1, h'.1.2⟩
    | cons o pre' =>
      simp only [List.nil_append, List.cons_append, List.cons.injEq] at h'
      rw [← h'.1] at hp'
      simp [recordsOf] at hp'
  | cons o pre ih =>
    cases pre' with
    | nil =>
      simp only [List.nil_append, List.cons_append, List.cons.injEq] at h'
      rw [h'.1] at hp
      simp [recordsOf] at hp
    | cons o' pre' =>
      simp only [List.cons_append, List.cons.injEq] at h'
      obtain ⟨rfl, h'⟩ := h'
      have k : recordsOf pre sat = [] ∧ recordsOf pre' sat = [] := by
        cases o with
        | write s e2 v2 =>
          simp only [recordsOf] at hp hp'
          split at hp
          · cases hp
          · rw [if_neg ‹_›] at hp'; exact ⟨hp, hp'⟩
        | _ => exact ⟨hp, hp'⟩
      obtain ⟨h1, h2⟩ := ih k.1 k.2 h'
      exact ⟨by rw [h1], h2⟩

private theorem texts_prefix {env : WEnv} {cfg : Cfg} {interval : Rat} {l m : List (DateTime × List (Option FVal))} {ts us : List Str}
    (h : List.Forall₂ (fun (r : DateTime × List (Option FVal)) t => recordText env cfg interval r.1 r.2 = .ok (some t)) l ts)
    (h' : List.Forall₂ (fun (r : DateTime × List (Option FVal)) t => recordText env cfg interval r.1 r.2 = .ok (some t)) (l ++ m) us) : ∃ vs, us = ts ++ vs := by
  induction h generalizing us with
  | nil => exact ⟨us, rfl⟩
  | @cons r t l ts h1 h2 ih =>
    cases h' with
    | @cons _ u _ us h3 h4 =>
      rw [h1] at h3
      cases h3
      obtain ⟨vs, rfl⟩ := ih h4
      exact ⟨vs, rfl⟩

private theorem runOps_split {env : WEnv} {cfg : Cfg} {filename : Str} {interval : Rat} (a b : List WOp) : ∀ {w : Writer} {fs : FS},
    (runOps env cfg filename interval a w fs).err = none → runOps env cfg filename interval (a ++ b) w fs =
      runOps env cfg filename interval b (runOps env cfg filename interval a w fs).w (runOps env cfg filename interval a w fs).fs := by
  induction a with
  | nil => intro w fs _; rfl
  | cons op a ih =>
    intro w fs h
    simp only [List.cons_append, runOps] at h ⊢
    cases he : (applyOp env cfg filename interval op w fs).err with
    | some x => rw [he] at h; cases h
    | none => rw [he] at h; exact ih h

/-- What is written stays: further calls, whether or not an exception stops them, only add to the end of the file of a satellite with a record. -/
theorem C53_grows (env : WEnv) (cfg : Cfg) (filename name : Str) (hn : LastComponent filename name) (hname : name ≠ []) (ho : cfg.outDir ≠ [])
    (ho2 : cfg.outDir.getLast? ≠ some '/') (interval : Rat) (D : Date) (a b : List WOp) (hok : OpsOk D (a ++ b)) (fs : FS)
    (hrun : (runOps env cfg filename interval a Writer.new fs).err = none) (sat : Str) (e : DateTime) (v : List (Option FVal)) (hw : WOp.write sat e v ∈ a) :
    ∃ text tail, (runOps env cfg filename interval a Writer.new fs).fs.get? (outputPath cfg.outDir (name.take 4) sat e) = some text ∧
      (runOps env cfg filename interval (a ++ b) Writer.new fs).fs.get? (outputPath cfg.outDir (name.take 4) sat e) = some (text ++ tail) := by
  have hoka : OpsOk D a := fun o ho => hok o (by simp [ho])
  have hokb : OpsOk D b := fun o ho => hok o (by simp [ho])
  have hI := (inv_run a (inv_init env cfg filename interval D fs) hoka).1 hrun
  simp only [List.nil_append] at hI
  have hs : recordsOf a sat ≠ [] := by
    clear hI hrun hok hoka
    induction a with
    | nil => cases hw
    | cons o a ih =>
      rcases List.mem_cons.1 hw with rfl | hw
      · simp [recordsOf]
      · have := ih hw
        cases o with
        | write s e' v' =>
          simp only [recordsOf]
          split
          · simp
          · exact this
        | _ => exact this
  obtain ⟨hl, hy, hD⟩ := hoka _ hw
  have hp : pathD cfg filename D sat = outputPath cfg.outDir (name.take 4) sat e := by
    rw [← path_eq cfg.outDir filename name sat e hl hy hn hname ho ho2]
    subst hD; rfl
  rw [← hp]
  have key : ∀ c w' fs', Inv env cfg filename interval D fs (a ++ c) w' fs' →
      ∃ text tail, (runOps env cfg filename interval a Writer.new fs).fs.get? (pathD cfg filename D sat) = some text ∧
        fs'.get? (pathD cfg filename D sat) = some (text ++ tail) := by
    intro c w' fs' hI'
    obtain ⟨pre, e1, v1, post, d, n, xyz, lbh, texts, g1, g2, g3, g4, g5, g6, g7⟩ := hI.files sat hs
    obtain ⟨pre', e2, v2, post', d', n', xyz', lbh', texts', k1, k2, k3, k4, k5, k6, k7⟩ := hI'.files sat (by rw [recordsOf_append]; simp [hs])
    obtain ⟨rfl, rfl, rfl⟩ := first_write g1 k1 g2 k2
    rw [g3] at k3
    rw [g4] at k4
    rw [g5] at k5
    cases k3; cases k4; cases k5
    rw [recordsOf_append] at k6
    obtain ⟨vs, rfl⟩ := texts_prefix g6 k6
    exact ⟨_, vs.flatten, g7, by rw [k7, List.flatten_append, List.append_assoc]⟩
  rw [runOps_split a b hrun]
  cases hb : (runOps env cfg filename interval b (runOps env cfg filename interval a Writer.new fs).w (runOps env cfg filename interval a Writer.new fs).fs).err with
  | none => exact key b _ _ ((inv_run b hI hokb).1 hb)
  | some er =>
    obtain ⟨ok, s, e', v', rest, w', fs', h1, _, h2, h3⟩ := (inv_run b hI hokb).2 (by rw [hb]; simp)
    rw [h3 (pathD cfg filename D sat)]
    · exact key ok _ _ h2
    · by_cases hss : sat = s
      · subst hss; exact .inr (by rw [recordsOf_append]; simp [hs])
      · exact .inl (fun h => hss (pathD_inj cfg filename D _ _ h))

/-! ## C54 -/

private theorem tsn_eq (e : DateTime) (interval : Rat) : tsnOf e interval = if interval = 0 then .error .zeroDiv else
    (let q := secOfDay e / interval
     if q - (truncRat q : Rat) ≠ 0 then (if q - (truncRat q : Rat) > 1 / 2 then .ok q.ceil else .ok q.floor) else .ok (truncRat q)) := rfl

private theorem secOfDay_nonneg (e : DateTime) : 0 ≤ secOfDay e := by
  unfold secOfDay
  have h1 : (0 : Rat) ≤ ((e.hour * 3600 + e.minute * 60 + e.second : Nat) : Rat) := Nat.cast_nonneg _
  have h2 : (0 : Rat) ≤ (e.micro : Rat) := Nat.cast_nonneg _
  have h3 : (0 : Rat) ≤ (e.micro : Rat) / 1000000 := div_nonneg h2 (by norm_num)
  linarith

/-- For every positive interval the time slot number of a record is the integer nearest to seconds-of-day / interval, the smaller one of two equally near; -/
theorem C54_slot (e : DateTime) (interval : Rat) (hi : 0 < interval) :
    ∃ n, tsnOf e interval = .ok n ∧ IsSlot (secOfDay e / interval) n := by
  rw [tsn_eq, if_neg (ne_of_gt hi)]
  have hq : 0 ≤ secOfDay e / interval := div_nonneg (secOfDay_nonneg e) hi.le
  generalize secOfDay e / interval = q at hq
  simp only
  have ht : truncRat q = q.floor := truncRat_nonneg hq
  rw [ht]
  have f1 : ((q.floor : Int) : Rat) ≤ q := Rat.floor_le q
  have f2 : q < (q.floor : Int) + 1 := by exact_mod_cast Rat.lt_floor_add_one q
  by_cases h0 : q - (q.floor : Rat) ≠ 0
  · rw [if_pos h0]
    by_cases h1 : q - (q.floor : Rat) > 1 / 2
    · rw [if_pos h1]
      refine ⟨_, rfl, ?_⟩
      have hc : q.ceil = q.floor + 1 := by
        rw [Rat.ceil_eq_neg_floor_neg]
        have : (-q).floor = -(q.floor + 1) := by
          apply ratFloor_eq <;> push_cast <;> linarith
        rw [this]; simp
      rw [hc]
      unfold IsSlot
      push_cast
      constructor <;> linarith
    · rw [if_neg h1]
      refine ⟨_, rfl, ?_⟩
      unfold IsSlot
      have : 0 < q - (q.floor : Rat) := lt_of_le_of_ne (by linarith) (Ne.symm h0)
      constructor <;> linarith
  · rw [if_neg h0]
    refine ⟨_, rfl, ?_⟩
    unfold IsSlot
    have : q - (q.floor : Rat) = 0 := not_not.1 h0
    constructor <;> linarith

/-- there is only one such integer; -/
theorem C54_unique (q : Rat) (n m : Int) (hn : IsSlot q n) (hm : IsSlot q m) : n = m := by
  obtain ⟨a, b⟩ := hn
  obtain ⟨c, d⟩ := hm
  have h1 : (n : Rat) < m + 1 := by linarith
  have h2 : (m : Rat) < n + 1 := by linarith
  have h1' : n < m + 1 := by exact_mod_cast h1
  have h2' : m < n + 1 := by exact_mod_cast h2
  omega

/-- it does not decrease in the course of the day; -/
theorem C54_monotone (e f : DateTime) (interval : Rat) (hi : 0 < interval) (hef : secOfDay e ≤ secOfDay f) (n m : Int) (hn : tsnOf e interval = .ok n)
    (hm : tsnOf f interval = .ok m) : n ≤ m := by
  obtain ⟨n', h1, a, b⟩ := C54_slot e interval hi
  obtain ⟨m', h2, c, d⟩ := C54_slot f interval hi
  rw [hn] at h1; rw [hm] at h2
  obtain rfl := Except.ok.inj h1
  obtain rfl := Except.ok.inj h2
  have : secOfDay e / interval ≤ secOfDay f / interval := by gcongr
  have h1 : (n : Rat) < m + 1 := by linarith
  have h1' : n < m + 1 := by exact_mod_cast h1
  omega

/-- on the grid of the interval it counts the intervals since midnight; -/
theorem C54_exact (e : DateTime) (interval : Rat) (hi : 0 < interval) (k : Nat) (hk : secOfDay e = k * interval) : tsnOf e interval = .ok (k : Int) := by
  obtain ⟨n, h1, h2⟩ := C54_slot e interval hi
  have hq : secOfDay e / interval = k := by rw [hk]; field_simp
  have : IsSlot (secOfDay e / interval) (k : Int) := by
    rw [hq]; unfold IsSlot; push_cast; constructor <;> linarith
  rw [h1, C54_unique _ _ _ h2 this]

/-- and with interval 0 (a file of version 2.0 sampled faster than 1 Hz) the record cannot be written: the write fails with ZeroDivisionError. -/
theorem C54_zero (env : WEnv) (cfg : Cfg) (e : DateTime) (v : List (Option FVal)) : recordText env cfg 0 e v = .error .zeroDiv := by
  unfold recordText tsnOf
  simp

example : tsnOf ⟨2015, 1, 2, 1, 0, 15, 0⟩ 30 = .ok 120 ∧ tsnOf ⟨2015, 1, 2, 1, 0, 16, 0⟩ 30 = .ok 121 ∧ tsnOf ⟨2015, 1, 2, 0, 0, 1, 500000⟩ (1/2) = .ok 3 := by
  decide +kernel

/-! ## C55 -/

private theorem hour_eq (e : DateTime) : hourOf e = secOfDay e / 3600 := by
  unfold hourOf secOfDay
  push_cast
  ring

/-- When the output format is the one composed from a list of columns: a record is the texts of those columns of the slot, the hour, the date and the values
handed over, where each missing value counts as 0 and all others are unchanged. -/
theorem C55_record (env : WEnv) (cfg : Cfg) (dtLen : Nat) (fields : List Str) (hne : fields ≠ []) (hcols : ∀ f ∈ fields, ∃ k, (f, k) ∈ columns)
    (hfmt : ∃ fort, composeRecFormat (formatDef dtLen) fields = .ok (fields, cfg.recFormat, fort))
    (interval : Rat) (hi : 0 < interval) (e : DateTime) (vals : List (Option FVal)) (hlen : vals.length + 3 = columns.length)
    (hfit : ∀ (i : Nat) (nk : Str × ColKind) (v : FVal), columns[i + 3]? = some nk → vals[i]? = some (some v) → ColFits nk.2 v) :
    ∃ slot full texts, IsSlot (secOfDay e / interval) slot ∧ FullRecord slot (secOfDay e / 3600) (env.strft cfg.datetimeFormat e) vals full ∧
      List.Forall₂ (IsColumnText full) fields texts ∧ recordText env cfg interval e vals = .ok (some (List.intercalate [' '] texts ++ ['\n'])) := by
  obtain ⟨slot, hs, hslot⟩ := C54_slot e interval hi
  obtain ⟨fmt, fort, hc, hr, -⟩ := C50_record dtLen fields hne hcols
  obtain ⟨fort', hfmt⟩ := hfmt
  rw [hc] at hfmt
  simp only [Except.ok.injEq, Prod.mk.injEq, true_and] at hfmt
  obtain ⟨hfmt, -⟩ := hfmt
  have hz : ∀ (i : Nat) (v : Option FVal), vals[i]? = some v → (zeroNones vals)[i]? = some (match v with | some x => x | none => .int 0) := by
    intro i v hv
    simp only [zeroNones, List.getElem?_map, hv, Option.map_some, Option.some.injEq]
    cases v <;> rfl
  have hfull : FullRecord slot (secOfDay e / 3600) (env.strft cfg.datetimeFormat e) vals
      (.int slot :: .flt (.fin (hourOf e)) :: .str (env.strft cfg.datetimeFormat e) :: zeroNones vals) := by
    refine ⟨by simp [zeroNones], rfl, by rw [hour_eq]; rfl, rfl, ?_⟩
    intro i v hv
    rw [List.getElem?_cons_succ, List.getElem?_cons_succ, List.getElem?_cons_succ, hz i v hv]
    cases v <;> rfl
  have htext : ∀ (i : Nat) (nk : Str × ColKind), columns[i + 3]? = some nk → nk.2 ≠ .text := by
    intro i nk h ht
    have hm : nk ∈ columns.drop 3 := by
      rw [List.mem_iff_getElem?]
      exact ⟨i, by rw [List.getElem?_drop, Nat.add_comm]; exact h⟩
    have : ∀ nk ∈ columns.drop 3, nk.2 ≠ .text := by
      simp only [columns, List.drop_succ_cons, List.drop_zero, List.forall_mem_cons, List.not_mem_nil, false_implies, implies_true, and_true, ne_eq,
        reduceCtorEq, not_false_eq_true]
    exact this nk hm ht
  have hrec : IsRecord (.int slot :: .flt (.fin (hourOf e)) :: .str (env.strft cfg.datetimeFormat e) :: zeroNones vals) := by
    refine ⟨by simpa [zeroNones] using hlen, ?_⟩
    intro i nk v h1 h2
    match i, h1, h2 with
    | 0, h1, h2 =>
      obtain rfl := Option.some.inj h1
      obtain rfl := Option.some.inj h2
      exact ⟨_, rfl⟩
    | 1, h1, h2 =>
      obtain rfl := Option.some.inj h1
      obtain rfl := Option.some.inj h2
      exact ⟨_, .inl rfl⟩
    | 2, h1, h2 =>
      obtain rfl := Option.some.inj h1
      obtain rfl := Option.some.inj h2
      exact ⟨_, rfl⟩
    | i + 3, h1, h2 =>
      simp only [List.getElem?_cons_succ] at h2
      have hv : ∃ w, vals[i]? = some w := by
        simp only [zeroNones, List.getElem?_map] at h2
        cases hh : vals[i]? with
        | none => rw [hh] at h2; cases h2
        | some w => exact ⟨w, rfl⟩
      obtain ⟨w, hw⟩ := hv
      rw [hz i w hw] at h2
      obtain rfl := Option.some.inj h2
      cases w with
      | some x => exact hfit i nk x h1 hw
      | none =>
        have := htext i nk h1
        rcases nk with ⟨n, k⟩
        cases k with
        | int w => exact ⟨0, rfl⟩
        | fix _ _ _ => exact ⟨0, .inr ⟨0, rfl, by simp⟩⟩
        | text => exact absurd rfl this
  obtain ⟨texts, ht, hf⟩ := hr _ hrec
  refine ⟨slot, _, texts, hslot, hfull, ht, ?_⟩
  unfold recordText
  rw [hs]
  simp only [← hfmt, hf]

/-- Whatever the values: what a successful write appends to the file of the satellite is a text ending with a newline, so no record is written as nothing
and the next one begins a new line. -/
theorem C55_line (env : WEnv) (cfg : Cfg) (dtLen : Nat) (fields cols : List Str) (fort : Str)
    (hfmt : composeRecFormat (formatDef dtLen) fields = .ok (cols, cfg.recFormat, fort)) (filename : Str) (interval : Rat) (sat f : Str) (e : DateTime)
    (vals : List (Option FVal)) (w : Writer) (fs : FS) (i : SatInfo) (hi : w.satellite.get? sat = some i) (hf : i.fobj = some f)
    (hok : (writeData env cfg filename interval sat e vals w fs).err = none) :
    ∃ line, (writeData env cfg filename interval sat e vals w fs).fs.get? f = some ((fs.get? f).getD [] ++ line ++ ['\n']) := by
  unfold writeData at hok ⊢
  simp only [hi, hf] at hok ⊢
  obtain ⟨-, h2, -⟩ := writeRecord_spec (env := env) (cfg := cfg) (interval := interval) (e := e) (v := vals) (fs := fs)
    (w := { w with path := some (w.path.getD (outDirOf cfg.outDir filename e)) }) hi hf
  obtain ⟨t, h3, h4⟩ := h2 hok
  obtain ⟨r, hr⟩ := composed_newline hfmt
  rw [h4, get?_writeTo, if_pos rfl]
  unfold recordText at h3
  split at h3
  · cases h3
  · split at h3
    · rename_i s hs
      cases h3
      rw [hr] at hs
      obtain ⟨s', rfl⟩ := formatGo_newline _ _ _ _ hs
      exact ⟨s', by simp⟩
    · cases h3
    · cases h3

/-- A value that a requested column does not accept (a fraction for an integer column, a text for a number) is not written in some other form: the write
fails, with TypeError, and no file changes. -/
theorem C55_misfit (env : WEnv) (cfg : Cfg) (dtLen : Nat) (fields : List Str) (hcols : ∀ f ∈ fields, ∃ k, (f, k) ∈ columns) (fort : Str)
    (hfmt : composeRecFormat (formatDef dtLen) fields = .ok (fields, cfg.recFormat, fort)) (filename : Str) (interval : Rat) (hi : 0 < interval)
    (sat f : Str) (e : DateTime) (vals : List (Option FVal)) (hlen : vals.length + 3 = columns.length) (w : Writer) (fs : FS) (i : SatInfo)
    (hs : w.satellite.get? sat = some i) (hf : i.fobj = some f) (j : Nat) (name : Str) (kind : ColKind) (v : FVal) (hname : name ∈ fields)
    (hj : columns[j + 3]? = some (name, kind)) (hv : vals[j]? = some (some v)) (hbad : ¬ ColTakes kind v) :
    (writeData env cfg filename interval sat e vals w fs).err = some .type ∧ (writeData env cfg filename interval sat e vals w fs).fs = fs := by
  obtain ⟨slot, hslot, -⟩ := C54_slot e interval hi
  have hz : ∀ date : Str, strFormat cfg.recFormat (.int slot :: .flt (.fin (hourOf e)) :: .str date :: zeroNones vals) = .error .value := by
    intro date
    refine strFormat_refuses dtLen fields fields cfg.recFormat fort hfmt hcols _ (by simpa [zeroNones] using hlen) ⟨_, rfl⟩ name hname (j + 3) kind v hj ?_ hbad
    simp only [List.getElem?_cons_succ, zeroNones, List.getElem?_map, hv, Option.map_some, Option.getD_some]
  have hr : recordText env cfg interval e vals = .ok none := by
    unfold recordText
    simp only [hslot, hz]
  unfold writeData
  simp only [hs, hf]
  unfold writeRecord
  rw [hr]
  exact ⟨rfl, rfl⟩

/-- the code written as an integer column: 2.5 is refused, 2 is not -/
theorem C55_misfit_example :
    let env : WEnv := ⟨fun _ _ => [], fun _ => [], fun _ _ => c% "2015-01-02"⟩
    let cfg : Cfg := ⟨[], [], [c% "tsn"], [], [], c% "out", c% "%Y", true, c% "{0:11d} {6:1d}\n", c% "(I11)", [], false, [], none⟩
    let w : Writer := ⟨[], [], [(c% "G01", ⟨some (c% "G01"), none, some (c% "f"), some (c% "f")⟩)], none⟩
    let vals : FVal → List (Option FVal) := fun x => List.replicate 3 none ++ some x :: List.replicate 47 none
    composeRecFormat (formatDef 10) [c% "tsn", c% "p1.lli"] = .ok ([c% "tsn", c% "p1.lli"], cfg.recFormat, c% "(I11,1X,I1)") ∧
    (writeData env cfg (c% "x") 30 (c% "G01") ⟨2015, 1, 2, 1, 30, 0, 0⟩ (vals (.flt (.fin (5/2)))) w [(c% "f", c% "a\n")]).err = some .type ∧
    (writeData env cfg (c% "x") 30 (c% "G01") ⟨2015, 1, 2, 1, 30, 0, 0⟩ (vals (.int 2)) w [(c% "f", c% "a\n")]).fs =
      [(c% "f", c% "a\n        180 2\n")] := by
  decide +kernel

/-- elevation missing, azimuth 12.5: the columns show 0 and 12.5 -/
theorem C55_example :
    let env : WEnv := ⟨fun _ _ => [], fun _ => [], fun _ _ => c% "2015-01-02"⟩
    let cfg : Cfg := ⟨[], [], [c% "tsn"], [], [], c% "out", c% "%Y", true, c% "{0:11d} {1:14.11f} {3: 10.5f} {4: 11.5f}\n", c% "(I11)", [], false, [], none⟩
    composeRecFormat (formatDef 10) [c% "tsn", c% "hour", c% "el", c% "az"] =
      .ok ([c% "tsn", c% "hour", c% "el", c% "az"], cfg.recFormat, c% "(I11,1X,F14.11,1X,F10.5,1X,F11.5)") ∧
    recordText env cfg 30 ⟨2015, 1, 2, 1, 30, 0, 0⟩ (none :: some (.flt (.fin (25/2))) :: List.replicate 49 none) =
      .ok (some (c% "        180  1.50000000000    0.00000    12.50000\n")) := by
  decide +kernel

/-! ## C93 -/

private theorem nodup_op {env : WEnv} {cfg : Cfg} {filename : Str} {interval : Rat} (op : WOp) {w : Writer} {fs : FS} (h : w.satellite.keys.Nodup) :
    (applyOp env cfg filename interval op w fs).w.satellite.keys.Nodup := by
  cases op with
  | satellite s d n => exact Dict.nodup_set _ _ _ h
  | position t p => exact h
  | geodetic t p => exact h
  | write s e v =>
    have hr : ∀ (w' : Writer) (fs' : FS), w'.satellite.keys.Nodup → (writeRecord env cfg interval s e v w' fs').w.satellite.keys.Nodup := by
      intro w' fs' hw
      unfold writeRecord
      repeat' split
      all_goals exact hw
    simp only [applyOp, writeData]
    split
    · exact h
    · split
      · exact hr _ _ h
      · have ho : ∀ fo fs', (openOut env cfg filename interval s e fo { w with path := some (w.path.getD (outDirOf cfg.outDir filename e)) } fs').w.satellite.keys.Nodup := by
          intro fo fs'
          have hn : (Writer.setFile { w with path := some (w.path.getD (outDirOf cfg.outDir filename e)) } s fo).satellite.keys.Nodup := Dict.nodup_set _ _ _ h
          unfold openOut
          simp only
          split
          · exact hn
          · split
            · exact hn
            · exact hn
        split
        · exact ho _ _
        · exact hr _ _ (ho _ _)

private theorem nodup_run {env : WEnv} {cfg : Cfg} {filename : Str} {interval : Rat} (ops : List WOp) {w : Writer} {fs : FS} (h : w.satellite.keys.Nodup) :
    (runOps env cfg filename interval ops w fs).w.satellite.keys.Nodup := by
  induction ops generalizing w fs with
  | nil => exact h
  | cons op ops ih =>
    simp only [runOps]
    split
    · exact nodup_op op h
    · exact ih (nodup_op op h)

private theorem recordsOf_mem (ops : List WOp) (sat : Str) : recordsOf ops sat ≠ [] ↔ ∃ e v, WOp.write sat e v ∈ ops := by
  induction ops with
  | nil => simp [recordsOf]
  | cons o ops ih =>
    cases o with
    | write s e v =>
      simp only [recordsOf]
      split
      · rename_i hs
        subst hs
        simp only [ne_eq, reduceCtorEq, not_false_eq_true, List.mem_cons, true_iff]
        exact ⟨e, v, .inl rfl⟩
      · rename_i hs
        rw [ih]
        constructor
        · rintro ⟨e', v', h⟩; exact ⟨e', v', by simp [h]⟩
        · rintro ⟨e', v', h⟩
          rcases List.mem_cons.1 h with h | h
          · exact absurd (WOp.write.inj h).1.symm hs
          · exact ⟨e', v', h⟩
    | _ => simpa [recordsOf] using ih

private theorem filterMap_nodup {α β κ : Type} (f : α → Option β) (k : α → κ) (l : List α) (hn : (l.map k).Nodup)
    (hinj : ∀ a ∈ l, ∀ b ∈ l, ∀ x, f a = some x → f b = some x → k a = k b) : (l.filterMap f).Nodup := by
  induction l with
  | nil => simp
  | cons a l ih =>
    simp only [List.map_cons, List.nodup_cons] at hn
    have ih' := ih hn.2 (fun a ha b hb => hinj a (by simp [ha]) b (by simp [hb]))
    cases hf : f a with
    | none => rw [List.filterMap_cons_none hf]; exact ih'
    | some x =>
      rw [List.filterMap_cons_some hf, List.nodup_cons]
      refine ⟨?_, ih'⟩
      intro hx
      obtain ⟨b, hb, hfb⟩ := List.mem_filterMap.1 hx
      exact hn.1 (List.mem_map.2 ⟨b, hb, (hinj a (by simp) b (by simp [hb]) x hf hfb).symm⟩)

/-- Whatever records of a day were written: as long as no exception has occurred, the files held open are those of the satellites records have been written for, each once
(however many records it has got). -/
theorem C93_open (env : WEnv) (cfg : Cfg) (filename name : Str) (hn : LastComponent filename name) (hname : name ≠ []) (ho : cfg.outDir ≠ [])
    (ho2 : cfg.outDir.getLast? ≠ some '/') (interval : Rat) (D : Date) (ops : List WOp) (hok : OpsOk D ops) (fs : FS)
    (hrun : (runOps env cfg filename interval ops Writer.new fs).err = none) :
    (runOps env cfg filename interval ops Writer.new fs).w.openFiles.Nodup ∧
    ∀ p, p ∈ (runOps env cfg filename interval ops Writer.new fs).w.openFiles ↔
      ∃ sat e v, WOp.write sat e v ∈ ops ∧ p = outputPath cfg.outDir (name.take 4) sat e := by
  have hI := (inv_run ops (inv_init env cfg filename interval D fs) hok).1 hrun
  rw [List.nil_append] at hI
  have hnd : (runOps env cfg filename interval ops Writer.new fs).w.satellite.keys.Nodup := nodup_run ops (by simp [Writer.new, Dict.keys])
  generalize (runOps env cfg filename interval ops Writer.new fs).w = w at hI hnd ⊢
  have key : ∀ sat info, (sat, info) ∈ w.satellite → ∀ p, info.fobj = some p → recordsOf ops sat ≠ [] ∧ p = pathD cfg filename D sat := by
    intro sat info hm p hp
    have hg := Dict.mem_get? _ _ _ hnd hm
    rw [hI.sats sat] at hg
    obtain ⟨dn, -, rfl⟩ := Option.map_eq_some_iff.1 hg
    simp only at hp
    split at hp
    · cases hp
    · rename_i hr
      exact ⟨hr, (Option.some.inj hp).symm⟩
  constructor
  · unfold Writer.openFiles
    apply filterMap_nodup (κ := Str) _ (fun s : Str × SatInfo => s.1) _ hnd
    rintro ⟨a, ia⟩ ha ⟨b, ib⟩ hb x hx hy
    have h1 := (key a ia ha x hx).2
    have h2 := (key b ib hb x hy).2
    exact pathD_inj cfg filename D a b (h1.symm.trans h2)
  · have hpath : ∀ sat e v, WOp.write sat e v ∈ ops → pathD cfg filename D sat = outputPath cfg.outDir (name.take 4) sat e := by
      intro sat e v h
      obtain ⟨hl, hy, hD⟩ := hok _ h
      rw [← path_eq cfg.outDir filename name sat e hl hy hn hname ho ho2]
      subst hD
      rfl
    intro p
    unfold Writer.openFiles
    rw [List.mem_filterMap]
    constructor
    · rintro ⟨⟨sat, info⟩, hm, hp⟩
      obtain ⟨h1, h2⟩ := key sat info hm p hp
      obtain ⟨e, v, h⟩ := (recordsOf_mem ops sat).1 h1
      exact ⟨sat, e, v, h, h2.trans (hpath sat e v h)⟩
    · rintro ⟨sat, e, v, h, rfl⟩
      have hr := (recordsOf_mem ops sat).2 ⟨e, v, h⟩
      obtain ⟨pre, e0, v0, post, d, n, xyz, lbh, texts, h1, h2, h3, -⟩ := hI.files sat hr
      have hls : lastSat ops sat ≠ none := by
        have : ∀ (l : List WOp) a, a ≠ none → l.foldl (fun a o => satF a sat o) a ≠ none := by
          intro l
          induction l with
          | nil => intro a ha; exact ha
          | cons o l ih =>
            intro a ha
            apply ih
            cases o with
            | satellite s2 d2 n2 => simp only [satF]; split; · simp
                                    · exact ha
            | _ => exact ha
        rw [h1]
        unfold lastSat at h3 ⊢
        rw [List.foldl_append, h3]
        exact this _ _ (by simp)
      obtain ⟨dn, hdn⟩ := Option.ne_none_iff_exists'.1 hls
      have hg := hI.sats sat
      rw [hdn, Option.map_some, if_neg hr] at hg
      exact ⟨_, Dict.get?_mem _ _ _ hg, by simp only [hpath sat e v h]⟩

/-- At the end of the file every output file that was opened is closed, exactly once, and none stays open. -/
theorem C93_closed (env : WEnv) (cfg : Cfg) (filename name : Str) (hn : LastComponent filename name) (hname : name ≠ []) (ho : cfg.outDir ≠ [])
    (ho2 : cfg.outDir.getLast? ≠ some '/') (interval : Rat) (D : Date) (ops : List WOp) (hok : OpsOk D ops) (fs : FS)
    (hrun : (runOps env cfg filename interval ops Writer.new fs).err = none) :
    (runOps env cfg filename interval ops Writer.new fs).w.endUp.1.openFiles = [] ∧
    (runOps env cfg filename interval ops Writer.new fs).w.endUp.2.Nodup ∧
    ∀ p, p ∈ (runOps env cfg filename interval ops Writer.new fs).w.endUp.2 ↔
      ∃ sat e v, WOp.write sat e v ∈ ops ∧ p = outputPath cfg.outDir (name.take 4) sat e :=
  ⟨rfl, C93_open env cfg filename name hn hname ho ho2 interval D ops hok fs hrun⟩

/-! ## C56 -/

private theorem outputPath_date (outDir site sat : Str) (t u : DateTime) (h : (⟨t.year, t.month, t.day⟩ : Date) = ⟨u.year, u.month, u.day⟩) :
    outputPath outDir site sat t = outputPath outDir site sat u := by
  simp only [Date.mk.injEq] at h
  obtain ⟨h1, h2, h3⟩ := h
  have hd : doy t = doy u := by unfold doy; rw [h1, h2, h3]
  unfold outputPath; rw [hd, h1]

/-- Two observation files of the same station and day (the first four characters of the names and the date agree): when the records of the second are
written, the file of each satellite occurring in it no longer holds any record of the first, only a header and the records of the second. -/
theorem C56_overwritten (env : WEnv) (cfg : Cfg) (f1 n1 f2 n2 : Str) (hn2 : LastComponent f2 n2) (h0 : n2 ≠ [])
    (hsite : n1.take 4 = n2.take 4) (ho : cfg.outDir ≠ []) (ho2 : cfg.outDir.getLast? ≠ some '/') (i1 i2 : Rat) (D : Date) (ops1 ops2 : List WOp)
    (hok1 : OpsOk D ops1) (hok2 : OpsOk D ops2) (fs : FS)
    (hrun2 : (runOps env cfg f2 i2 ops2 Writer.new (runOps env cfg f1 i1 ops1 Writer.new fs).fs).err = none)
    (sat : Str) (e1 : DateTime) (v1 : List (Option FVal)) (hs1 : WOp.write sat e1 v1 ∈ ops1) (hs2 : recordsOf ops2 sat ≠ []) :
    ∃ created satDef nav lbh xyz texts,
      List.Forall₂ (fun (r : DateTime × List (Option FVal)) t => recordText env cfg i2 r.1 r.2 = .ok (some t)) (recordsOf ops2 sat) texts ∧
      (runOps env cfg f2 i2 ops2 Writer.new (runOps env cfg f1 i1 ops1 Writer.new fs).fs).fs.get? (outputPath cfg.outDir (n1.take 4) sat e1) =
        some (headerText created (f2 ++ (c% ", ") ++ nav) satDef (env.repr i2) (samplingText env cfg i2) (n2.take 4) lbh xyz cfg.datetimeFormat
          (columnsText cfg.recFields) cfg.recFortranFormat ++ texts.flatten) := by
  obtain ⟨pre, e, v, post, satDef, nav, xyz, lbh, texts, h1, h2, h3, h4, h5, h6, h7⟩ := C53_contents env cfg f2 n2 hn2 h0 ho ho2 i2 D ops2 hok2 _ hrun2 sat hs2
  refine ⟨env.now sat e, satDef, if nav = none ∨ nav = some [] then c% "None" else nav.getD [], posText env.repr lbh, posText env.repr xyz, texts, h6, ?_⟩
  · have he : (⟨e1.year, e1.month, e1.day⟩ : Date) = ⟨e.year, e.month, e.day⟩ := by
      have a := hok1 _ hs1
      have b := hok2 (.write sat e v) (by rw [h1]; simp)
      exact a.2.2.trans b.2.2.symm
    rw [outputPath_date _ _ _ _ _ he, hsite]
    exact h7

/-! ## a concrete case -/

private def exEnv : WEnv := ⟨fun _ _ => c% "2026-01-01", fun q => if q < 0 then '-' :: natStr q.num.natAbs else natStr q.num.natAbs, fun _ _ => c% "2015-01-02"⟩
private def exCfg : Cfg := ⟨[], [], [c% "tsn"], [], [], c% "out", c% "%Y", true, c% "{0:11d}\n", c% "(I11)", [], false, [], none⟩
private def exOps (k : Nat) : List WOp :=
  [.position ⟨2015, 1, 2, 0, 0, 0, 0⟩ ⟨1, 2, 3⟩, .geodetic ⟨2015, 1, 2, 0, 0, 0, 0⟩ ⟨4, 5, 6⟩, .satellite (c% "G01") (c% "G01") (some (c% "nav")),
    .satellite (c% "R02") (c% "R02") none, .write (c% "G01") ⟨2015, 1, 2, 0, k, 0, 0⟩ [], .write (c% "R02") ⟨2015, 1, 2, 0, k, 0, 0⟩ [],
    .write (c% "G01") ⟨2015, 1, 2, 0, k, 30, 0⟩ []]

/-- Two files of the same station and day: both runs are free of exceptions and satisfy the hypotheses; the first leaves two records of G01 in its file, the
second replaces them. -/
theorem C56_example :
    OpsOk ⟨2015, 1, 2⟩ (exOps 1) ∧ OpsOk ⟨2015, 1, 2⟩ (exOps 2) ∧ LastComponent (c% "d/irkj0020.15o") (c% "irkj0020.15o") ∧
    (let r1 := runOps exEnv exCfg (c% "d/irkj0020.15o") 30 (exOps 1) Writer.new []
     let r2 := runOps exEnv exCfg (c% "d/irkj002a.15o") 30 (exOps 2) Writer.new r1.fs
     r1.err = none ∧ r2.err = none ∧
      (r1.fs.get? (c% "out/2015/002/irkj/irkj_G01_002_15.dat")).map (fun t => (splitOn '\n' t).drop 11) =
        some [c% "          2", c% "          3", []] ∧
      (r2.fs.get? (c% "out/2015/002/irkj/irkj_G01_002_15.dat")).map (fun t => (splitOn '\n' t).drop 11) =
        some [c% "          4", c% "          5", []] ∧
      outputPath (c% "out") (c% "irkj") (c% "G01") ⟨2015, 1, 2, 0, 0, 0, 0⟩ = c% "out/2015/002/irkj/irkj_G01_002_15.dat") := by
  refine ⟨?_, ?_, ⟨by decide, .inr ⟨c% "d", by decide⟩⟩, by decide +kernel⟩
  all_goals
    intro op hop
    simp only [exOps, List.mem_cons, List.not_mem_nil, or_false] at hop
    rcases hop with rfl | rfl | rfl | rfl | rfl | rfl | rfl <;> simp only [Legal, LegalDate, and_true]
    all_goals trivial

/-- three records of two satellites: two files are open, both are closed at the end; a satellite announced only (E05) has no file -/
theorem C93_example :
    let r := runOps exEnv exCfg (c% "d/irkj0020.15o") 30 (exOps 1 ++ [.satellite (c% "E05") (c% "E05") none]) Writer.new []
    r.err = none ∧ r.w.satellite.length = 3 ∧ r.w.openFiles = [c% "out/2015/002/irkj/irkj_G01_002_15.dat", c% "out/2015/002/irkj/irkj_R02_002_15.dat"] ∧
      r.w.endUp.2 = r.w.openFiles ∧ r.w.endUp.1.openFiles = [] := by
  decide +kernel

end Verif.Props
