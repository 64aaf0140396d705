import Verif.Spec.Rerun
/-!
# Two runs over the same input, with different files on the disk before and at different times
-/
namespace Verif.Proofs
open Verif.Py Verif.Model Verif.Spec

/-- the same text, or with the date of `m` and `m'` -/
def Dated (m m' : Str → DateTime → Str) (s t : Str) : Prop :=
  s = t ∨ ∃ sat e rest, s = (c% "# Created on ") ++ m sat e ++ '\n' :: rest ∧ t = (c% "# Created on ") ++ m' sat e ++ '\n' :: rest

theorem Dated.same {m m' : Str → DateTime → Str} {s t : Str} (h : Dated m m' s t) : SameButDate s t := by
  rcases h with h | ⟨sat, e, rest, h1, h2⟩
  · exact .inl h
  · exact .inr ⟨_, _, _, h1, h2⟩

theorem Dated.eq {m : Str → DateTime → Str} {s t : Str} (h : Dated m m s t) : s = t := by
  rcases h with h | ⟨sat, e, rest, h1, h2⟩
  · exact h
  · rw [h1, h2]

variable {m m' : Str → DateTime → Str}

theorem Dated.append {s t : Str} (h : Dated m m' s t) (u : Str) : Dated m m' (s ++ u) (t ++ u) := by
  rcases h with rfl | ⟨d, d', rest, rfl, rfl⟩
  · exact .inl rfl
  · exact .inr ⟨d, d', rest ++ u, by simp, by simp⟩

/-- the same program with another clock -/
def atTime (P : Prm) (now : Str → DateTime → Str) : Prm := { P with env := { P.env with now := now } }

/-- the contents of a file in two file systems -/
def Alike (m m' : Str → DateTime → Str) (fs fs' : FS) (p : Str) : Prop := ∃ s t, fs.get? p = some s ∧ fs'.get? p = some t ∧ Dated m m' s t

/-- relation of the file systems of two runs which began with `a` and `b` -/
def Related (m m' : Str → DateTime → Str) (a b fs fs' : FS) : Prop := ∀ p, (fs.get? p = a.get? p ∧ fs'.get? p = b.get? p) ∨ Alike m m' fs fs' p

/-- the files the writer has open -/
def OpenAlike (m m' : Str → DateTime → Str) (w : Writer) (fs fs' : FS) : Prop := ∀ sat i f, w.satellite.get? sat = some i → i.fobj = some f → Alike m m' fs fs' f

theorem alike_set {fs fs' : FS} {f p s t : Str} (h : Dated m m' s t) (hp : Alike m m' fs fs' p ∨ p = f) : Alike m m' (fs.set f s) (fs'.set f t) p := by
  by_cases e : f = p
  · subst e
    exact ⟨s, t, by rw [Dict.get?_set]; simp, by rw [Dict.get?_set]; simp, h⟩
  · obtain ⟨u, v, h1, h2, h3⟩ := hp.resolve_right (Ne.symm e)
    exact ⟨u, v, by rw [Dict.get?_set, if_neg e, h1], by rw [Dict.get?_set, if_neg e, h2], h3⟩

theorem related_set {a b fs fs' : FS} {f s t : Str} (hr : Related m m' a b fs fs') (h : Dated m m' s t) : Related m m' a b (fs.set f s) (fs'.set f t) := by
  intro p
  by_cases e : f = p
  · exact .inr (alike_set h (.inr e.symm))
  · rcases hr p with h1 | h1
    · left
      rw [Dict.get?_set, if_neg e, Dict.get?_set, if_neg e]
      exact h1
    · exact .inr (alike_set h (.inl h1))

theorem alike_write {fs fs' : FS} {f s : Str} (hf : Alike m m' fs fs' f) {p : Str} (hp : Alike m m' fs fs' p) : Alike m m' (writeTo fs f s) (writeTo fs' f s) p := by
  obtain ⟨u, v, h1, h2, h3⟩ := hf
  unfold writeTo
  rw [h1, h2]
  exact alike_set (Dated.append h3 s) (.inl hp)

theorem related_write {a b fs fs' : FS} {f s : Str} (hr : Related m m' a b fs fs') (hf : Alike m m' fs fs' f) : Related m m' a b (writeTo fs f s) (writeTo fs' f s) := by
  obtain ⟨u, v, h1, h2, h3⟩ := hf
  unfold writeTo
  rw [h1, h2]
  exact related_set hr (Dated.append h3 s)

/-- how two calls of the writer end -/
structure SameOut (m m' : Str → DateTime → Str) (a b : FS) (x y : WOut) : Prop where
  w : y.w = x.w
  err : y.err = x.err
  related : Related m m' a b x.fs y.fs
  opened : OpenAlike m m' x.w x.fs y.fs

theorem record_same {a b : FS} (env : WEnv) (_hn : env.now = m) (cfg : Cfg) (interval : Rat) (sat : Str) (epoch : DateTime) (vals : List (Option FVal)) (w : Writer)
    {fs fs' : FS} (hr : Related m m' a b fs fs') (ho : OpenAlike m m' w fs fs') :
    SameOut m m' a b (writeRecord env cfg interval sat epoch vals w fs) (writeRecord { env with now := m' } cfg interval sat epoch vals w fs') := by
  have hrec : recordText { env with now := m' } cfg interval epoch vals = recordText env cfg interval epoch vals := rfl
  unfold writeRecord
  rw [hrec]
  cases recordText env cfg interval epoch vals with
  | error e => exact ⟨rfl, rfl, hr, ho⟩
  | ok t =>
    cases t with
    | none => exact ⟨rfl, rfl, hr, ho⟩
    | some s =>
      simp only
      cases hs : w.satellite.get? sat with
      | none => exact ⟨rfl, rfl, hr, ho⟩
      | some i =>
        simp only
        cases hf : i.fobj with
        | none => exact ⟨rfl, rfl, hr, ho⟩
        | some f => exact ⟨rfl, rfl, related_write hr (ho sat i f hs hf), fun sat' i' f' h1 h2 => alike_write (ho sat i f hs hf) (ho sat' i' f' h1 h2)⟩

theorem created_same (sat : Str) (e : DateTime) (rest : Str) : Dated m m' ((c% "# Created on ") ++ m sat e ++ '\n' :: rest) ((c% "# Created on ") ++ m' sat e ++ '\n' :: rest) :=
  .inr ⟨sat, e, rest, rfl, rfl⟩

theorem comment_same (env : WEnv) (hn : env.now = m) (cfg : Cfg) (filename : Str) (interval : Rat) (sat : Str) (epoch : DateTime) (info : SatInfo) (xyz lbh : Pos) :
    Dated m m' (comment env cfg filename interval sat epoch info xyz lbh) (comment { env with now := m' } cfg filename interval sat epoch info xyz lbh) := by
  have hs : samplingText { env with now := m' } cfg interval = samplingText env cfg interval := rfl
  unfold comment
  rw [hs, hn]
  repeat (first | with_reducible exact created_same .. | apply Dated.append)

theorem open_same {a b : FS} (env : WEnv) (hn : env.now = m) (cfg : Cfg) (filename : Str) (interval : Rat) (sat : Str) (epoch : DateTime) (f : Str) (w : Writer)
    {fs fs' : FS} (hr : Related m m' a b fs fs') (ho : OpenAlike m m' w fs fs') :
    SameOut m m' a b (openOut env cfg filename interval sat epoch f w fs) (openOut { env with now := m' } cfg filename interval sat epoch f w fs') := by
  have hr1 : Related m m' a b (fs.set f []) (fs'.set f []) := related_set hr (.inl rfl)
  have hf1 : Alike m m' (fs.set f []) (fs'.set f []) f := alike_set (.inl rfl) (.inr rfl)
  have ho1 : OpenAlike m m' (w.setFile sat f) (fs.set f []) (fs'.set f []) := by
    intro s i g h1 h2
    unfold Writer.setFile at h1
    simp only at h1
    rw [Dict.get?_set] at h1
    split at h1
    · cases h1
      cases h2
      exact hf1
    · exact alike_set (.inl rfl) (.inl (ho s i g h1 h2))
  unfold openOut
  simp only
  cases latest (w.setFile sat f).xyz with
  | error e => exact ⟨rfl, rfl, hr1, ho1⟩
  | ok xyz =>
    simp only
    cases latest (w.setFile sat f).lbh with
    | error e => exact ⟨rfl, rfl, hr1, ho1⟩
    | ok lbh =>
      simp only
      have hc := comment_same (m' := m') env hn cfg filename interval sat epoch (((w.setFile sat f).satellite.get? sat).getD ⟨none, none, none, none⟩) xyz lbh
      have e1 : (fs.set f []).get? f = some [] := by rw [Dict.get?_set]; simp
      have e2 : (fs'.set f []).get? f = some [] := by rw [Dict.get?_set]; simp
      refine ⟨rfl, rfl, ?_, fun s i g h1 h2 => ?_⟩
      · unfold writeTo
        rw [e1, e2, Option.getD_some, List.nil_append, List.nil_append]
        exact related_set hr1 hc
      · unfold writeTo
        rw [e1, e2, Option.getD_some, List.nil_append, List.nil_append]
        exact alike_set hc (.inl (ho1 s i g h1 h2))

theorem applyOp_same {a b : FS} (env : WEnv) (hn : env.now = m) (cfg : Cfg) (filename : Str) (interval : Rat) (op : WOp) (w : Writer)
    {fs fs' : FS} (hr : Related m m' a b fs fs') (ho : OpenAlike m m' w fs fs') :
    SameOut m m' a b (applyOp env cfg filename interval op w fs) (applyOp { env with now := m' } cfg filename interval op w fs') := by
  cases op with
  | satellite s d n =>
    refine ⟨rfl, rfl, hr, fun sat i f h1 h2 => ?_⟩
    simp only [applyOp, Writer.addSatellite] at h1
    rw [Dict.get?_set] at h1
    split at h1
    · cases h1
      simp only at h2
      cases hs : w.satellite.get? s with
      | none => rw [hs] at h2; cases h2
      | some j => rw [hs] at h2; exact ho s j f hs h2
    · exact ho sat i f h1 h2
  | position t p => exact ⟨rfl, rfl, hr, ho⟩
  | geodetic t p => exact ⟨rfl, rfl, hr, ho⟩
  | write s e v =>
    simp only [applyOp, writeData]
    generalize hp : w.path.getD (outDirOf cfg.outDir filename e) = path
    have ho' : OpenAlike m m' { w with path := some path } fs fs' := ho
    cases hs : w.satellite.get? s with
    | none => exact ⟨rfl, rfl, hr, ho'⟩
    | some i =>
      simp only
      cases i.fobj with
      | some _ => exact record_same env hn cfg interval s e v _ hr ho'
      | none =>
        simp only
        have hop := open_same env hn cfg filename interval s e (outName path filename s e) { w with path := some path } hr ho'
        rw [hop.err, hop.w]
        cases (openOut env cfg filename interval s e (outName path filename s e) { w with path := some path } fs).err with
        | some er => exact ⟨rfl, rfl, hop.related, hop.opened⟩
        | none => exact record_same env hn cfg interval s e v _ hop.related hop.opened

/-! ## The main loop -/

/-- two states in the loop over a file -/
structure SameSt (m m' : Str → DateTime → Str) (a b : FS) (s t : St) : Prop where
  eq : t = { s with fs := t.fs }
  related : Related m m' a b s.fs t.fs
  opened : OpenAlike m m' s.w s.fs t.fs

theorem call_same {a b : FS} (P : Prm) (hn : P.env.now = m) (o : ObsIn) (op : WOp) {s t : St} (h : SameSt m m' a b s t) :
    SameSt m m' a b (call P o op s).1 (call (atTime P m') o op t).1 ∧ (call (atTime P m') o op t).2 = (call P o op s).2 := by
  obtain ⟨he, hr, ho⟩ := h
  have hw : t.w = s.w := by rw [he]
  have hop : t.ops = s.ops := by rw [he]
  have key := applyOp_same P.env hn P.cfg o.filename o.interval op s.w hr ho
  unfold call
  simp only [atTime]
  rw [hw]
  refine ⟨⟨?_, key.related, key.opened⟩, key.err⟩
  simp only
  rw [key.w, hop, he]

theorem nav_same {a b : FS} (P : Prm) (_hn : P.env.now = m) (c : Char) (d : Date) {s t : St} (h : SameSt m m' a b s t) :
    SameSt m m' a b (navStage P c d s).1 (navStage (atTime P m') c d t).1 ∧ (navStage (atTime P m') c d t).2 = (navStage P c d s).2 := by
  obtain ⟨he, hr, ho⟩ := h
  rw [he]
  generalize t.fs = f at hr ho
  unfold navStage
  simp only [atTime]
  split <;> (split <;> [exact ⟨⟨rfl, hr, ho⟩, rfl⟩; (split <;> [(split <;> exact ⟨⟨rfl, hr, ho⟩, rfl⟩); exact ⟨⟨rfl, hr, ho⟩, rfl⟩])])

theorem pos_same {a b : FS} (P : Prm) (_hn : P.env.now = m) (c : Char) (n : Int) (e : DateTime) {s t : St} (h : SameSt m m' a b s t) :
    SameSt m m' a b (posStage P c n e s).1 (posStage (atTime P m') c n e t).1 ∧ (posStage (atTime P m') c n e t).2 = (posStage P c n e s).2 := by
  obtain ⟨he, hr, ho⟩ := h
  rw [he]
  generalize t.fs = f at hr ho
  unfold posStage
  simp only [atTime]
  split
  · exact ⟨⟨rfl, hr, ho⟩, rfl⟩
  · split
    · exact ⟨⟨rfl, hr, ho⟩, rfl⟩
    · exact ⟨⟨rfl, hr, ho⟩, rfl⟩
    · split
      · split <;> exact ⟨⟨rfl, hr, ho⟩, rfl⟩
      · split
        · split
          · exact ⟨⟨rfl, hr, ho⟩, rfl⟩
          · split <;> exact ⟨⟨rfl, hr, ho⟩, rfl⟩
          · exact ⟨⟨rfl, hr, ho⟩, rfl⟩
        · exact ⟨⟨rfl, hr, ho⟩, rfl⟩

/-- first half of `siteStage` -/
def newSite (P : Prm) (xyz : Dict DateTime Pos) (e : DateTime) (hdr : Pos) (s : St) : St × Flow :=
  let set := fun (p : Pos) =>
    match P.lbh p with
    | .error e => ({ s with x := p }, Flow.stop e)
    | .ok l => ({ s with x := p, l := l }, Flow.next)
  match xyz.get? e with
    | some p => set p
    | none => if s.x ≠ hdr then set hdr else (s, .next)

/-- second half of `siteStage` -/
def tellSite (P : Prm) (o : ObsIn) (epoch : DateTime) (r : St × Flow) : St × Flow :=
  match r.2 with
  | .next =>
    match latest r.1.w.xyz with
    | .error e => (r.1, .stop e)
    | .ok p =>
      if r.1.x ≠ p then ((call P o (.geodetic epoch r.1.l) (call P o (.position epoch r.1.x) r.1).1).1, .next)
      else (r.1, .next)
  | f => (r.1, f)

theorem siteStage_parts (P : Prm) (o : ObsIn) (xyz : Dict DateTime Pos) (e : DateTime) (hdr : Pos) (s : St) :
    siteStage P o xyz e hdr s = tellSite P o e (newSite P xyz e hdr s) := rfl

theorem newSite_same {a b : FS} (P : Prm) (_hn : P.env.now = m) (xyz : Dict DateTime Pos) (e : DateTime) (hdr : Pos) {s t : St} (h : SameSt m m' a b s t) :
    SameSt m m' a b (newSite P xyz e hdr s).1 (newSite (atTime P m') xyz e hdr t).1 ∧ (newSite (atTime P m') xyz e hdr t).2 = (newSite P xyz e hdr s).2 := by
  obtain ⟨he, hr, ho⟩ := h
  rw [he]
  generalize t.fs = f at hr ho
  have hl : ∀ p, (atTime P m').lbh p = P.lbh p := fun _ => rfl
  unfold newSite
  simp only [hl]
  split
  · split <;> exact ⟨⟨rfl, hr, ho⟩, rfl⟩
  · split
    · split <;> exact ⟨⟨rfl, hr, ho⟩, rfl⟩
    · exact ⟨⟨rfl, hr, ho⟩, rfl⟩

theorem tellSite_same {a b : FS} (P : Prm) (hn : P.env.now = m) (o : ObsIn) (e : DateTime) {u v : St × Flow} (h : SameSt m m' a b u.1 v.1) (h2 : v.2 = u.2) :
    SameSt m m' a b (tellSite P o e u).1 (tellSite (atTime P m') o e v).1 ∧ (tellSite (atTime P m') o e v).2 = (tellSite P o e u).2 := by
  unfold tellSite
  rw [h2]
  cases u.2 with
  | next =>
    simp only
    have hw : v.1.w = u.1.w := by rw [h.eq]
    have hx : v.1.x = u.1.x := by rw [h.eq]
    have hl : v.1.l = u.1.l := by rw [h.eq]
    rw [hw, hx, hl]
    cases latest u.1.w.xyz with
    | error er => exact ⟨h, rfl⟩
    | ok p =>
      simp only
      split
      · exact ⟨(call_same P hn o _ (call_same P hn o _ h).1).1, rfl⟩
      · exact ⟨h, rfl⟩
  | skip => exact ⟨h, rfl⟩
  | stop er => exact ⟨h, rfl⟩

theorem site_same {a b : FS} (P : Prm) (hn : P.env.now = m) (o : ObsIn) (xyz : Dict DateTime Pos) (e : DateTime) (hdr : Pos) {s t : St} (h : SameSt m m' a b s t) :
    SameSt m m' a b (siteStage P o xyz e hdr s).1 (siteStage (atTime P m') o xyz e hdr t).1 ∧
      (siteStage (atTime P m') o xyz e hdr t).2 = (siteStage P o xyz e hdr s).2 := by
  obtain ⟨h1, h2⟩ := newSite_same P hn xyz e hdr h
  rw [siteStage_parts, siteStage_parts]
  exact tellSite_same P hn o e h1 h2

theorem outStage_same {a b : FS} (P : Prm) (hn : P.env.now = m) (o : ObsIn) (it : ObsItem) (c : Char) (d : Date) (e : DateTime) (sd : Str) (vals : List (Option FVal))
    {s t : St} (h : SameSt m m' a b s t) :
    SameSt m m' a b (outStage P o it c d e sd vals s).1 (outStage (atTime P m') o it c d e sd vals t).1 ∧
      (outStage (atTime P m') o it c d e sd vals t).2 = (outStage P o it c d e sd vals s).2 := by
  have hw : t.w = s.w := by rw [h.eq]
  have hg : t.g = s.g := by rw [h.eq]
  have hd : (atTime P m').dtLen = P.dtLen := rfl
  unfold outStage
  rw [hw, hg, hd]
  split
  · exact ⟨h, rfl⟩
  · split
    · exact call_same P hn o _ h
    · split
      · exact ⟨h, rfl⟩
      · split
        · exact ⟨h, rfl⟩
        · exact call_same P hn o _ (call_same P hn o _ h).1

theorem emit_same {a b : FS} (P : Prm) (hn : P.env.now = m) (o : ObsIn) (it : ObsItem) (c : Char) (n : Int) (d : Date) (e : DateTime) {s t : St} (h : SameSt m m' a b s t) :
    SameSt m m' a b (emitStage P o it c n d e s).1 (emitStage (atTime P m') o it c n d e t).1 ∧
      (emitStage (atTime P m') o it c n d e t).2 = (emitStage P o it c n d e s).2 := by
  have hg : t.g = s.g := by rw [h.eq]
  have hx : t.x = s.x := by rw [h.eq]
  have hl : t.l = s.l := by rw [h.eq]
  have ha : ∀ y z, angles (atTime P m') c y z = angles P c y z := fun _ _ => rfl
  have hv : ∀ q r u v y z, values (atTime P m') it c q r u v y z = values P it c q r u v y z := fun _ _ _ _ _ _ => rfl
  have hs : ∀ k, satDefOf (atTime P m') c n it.sat k = satDefOf P c n it.sat k := fun _ => rfl
  unfold emitStage
  rw [hg, hx, hl]
  simp only [ha, hv, hs]
  split
  · exact ⟨h, rfl⟩
  · split
    · exact ⟨h, rfl⟩
    · exact ⟨h, rfl⟩
    · split
      · exact ⟨h, rfl⟩
      · split
        · exact ⟨h, rfl⟩
        · exact ⟨h, rfl⟩
        · exact outStage_same P hn o it c d e _ _ h

theorem process_same {a b : FS} (P : Prm) (hn : P.env.now = m) (o : ObsIn) (xyz : Dict DateTime Pos) (it : ObsItem) (c : Char) (n : Int) (e : DateTime) {s t : St}
    (h : SameSt m m' a b s t) :
    SameSt m m' a b (process P o xyz it c n e s).1 (process (atTime P m') o xyz it c n e t).1 ∧
      (process (atTime P m') o xyz it c n e t).2 = (process P o xyz it c n e s).2 := by
  obtain ⟨h1, f1⟩ := nav_same P hn c e.date h
  obtain ⟨h2, f2⟩ := pos_same P hn c n e h1
  obtain ⟨h3, f3⟩ := site_same P hn o xyz e it.xyz h2
  unfold process
  simp only
  rw [f1, f2, f3]
  cases (navStage P c e.date s).2 with
  | skip => exact ⟨h1, rfl⟩
  | stop er => exact ⟨h1, rfl⟩
  | next =>
    simp only
    cases (posStage P c n e (navStage P c e.date s).1).2 with
    | skip => exact ⟨h2, rfl⟩
    | stop er => exact ⟨h2, rfl⟩
    | next =>
      simp only
      cases (siteStage P o xyz e it.xyz (posStage P c n e (navStage P c e.date s).1).1).2 with
      | skip => exact ⟨h3, rfl⟩
      | stop er => exact ⟨h3, rfl⟩
      | next => exact emit_same P hn o it c n e.date e h3

theorem items_same {a b : FS} (P : Prm) (hn : P.env.now = m) (o : ObsIn) (sampling : Option Int) (xyz : Dict DateTime Pos) (its : List ObsItem) :
    ∀ (last : Option DateTime) {s t : St}, SameSt m m' a b s t →
    SameSt m m' a b (runItems P o sampling xyz its last s).1 (runItems (atTime P m') o sampling xyz its last t).1 ∧
      (runItems (atTime P m') o sampling xyz its last t).2 = (runItems P o sampling xyz its last s).2 := by
  induction its with
  | nil => exact fun _ _ _ h => ⟨h, rfl⟩
  | cons it its ih =>
    intro last s t h
    simp only [runItems]
    cases admit o sampling last it with
    | error e => exact ⟨h, rfl⟩
    | ok r =>
      cases r with
      | none => exact ih last h
      | some q =>
        obtain ⟨c, n, e, l⟩ := q
        simp only
        obtain ⟨h1, f1⟩ := process_same P hn o xyz it c n e h
        rw [f1]
        cases (process P o xyz it c n e s).2 with
        | some er => exact ⟨h1, rfl⟩
        | none => exact ih l h1

/-- how two runs over a file end -/
structure SameFile (m m' : Str → DateTime → Str) (a b : FS) (x y : FileOut) : Prop where
  g : y.g = x.g
  ops : y.ops = x.ops
  err : y.err = x.err
  related : Related m m' a b x.fs y.fs

theorem file_same {a b : FS} (P : Prm) (hn : P.env.now = m) (f : FileIn) (g : Glob) {fs fs' : FS} (h : Related m m' a b fs fs') :
    SameFile m m' a b (processFile P f g fs) (processFile (atTime P m') f g fs') := by
  have hl : ∀ p, (atTime P m').lbh p = P.lbh p := fun _ => rfl
  have hc : (atTime P m').cfg = P.cfg := rfl
  unfold processFile
  simp only [hl, hc]
  split
  · split <;> exact ⟨rfl, rfl, rfl, h⟩
  · rename_i o _
    split
    · exact ⟨rfl, rfl, rfl, h⟩
    · split
      · exact ⟨rfl, rfl, rfl, h⟩
      · rename_i t sys _
        split
        · exact ⟨rfl, rfl, rfl, h⟩
        · split
          · exact ⟨rfl, rfl, rfl, h⟩
          · rename_i l _
            split
            · exact ⟨rfl, rfl, rfl, h⟩
            · rename_i xyz _
              have h0 : SameSt m m' a b ⟨g, o.xyz, l, [], Writer.new, fs, []⟩ ⟨g, o.xyz, l, [], Writer.new, fs', []⟩ :=
                ⟨rfl, h, fun sat i f h1 => by cases h1⟩
              have h1 : SameSt m m' a b (startState P o t l g fs) (startState (atTime P m') o t l g fs') :=
                (call_same P hn o _ (call_same P hn o _ h0).1).1
              obtain ⟨h2, f2⟩ := items_same P hn o (samplingFor P.cfg o.interval) xyz o.items none h1
              have hg := congrArg St.g h2.eq
              have hops := congrArg St.ops h2.eq
              simp only at hg hops
              simp only [f2]
              split
              · exact ⟨hg, hops, rfl, h2.related⟩
              · split
                · exact ⟨hg, hops, rfl, h2.related⟩
                · exact ⟨hg, hops, rfl, h2.related⟩

theorem loop_same {a b : FS} (P : Prm) (hn : P.env.now = m) (ins : List FileIn) : ∀ (g : Glob) {fs fs' : FS}, Related m m' a b fs fs' →
    (mainLoop (atTime P m') ins g fs').1 = (mainLoop P ins g fs).1 ∧ (mainLoop (atTime P m') ins g fs').2.2 = (mainLoop P ins g fs).2.2 ∧
      Related m m' a b (mainLoop P ins g fs).2.1 (mainLoop (atTime P m') ins g fs').2.1 := by
  induction ins with
  | nil => exact fun _ _ _ h => ⟨rfl, rfl, h⟩
  | cons f files ih =>
    intro g fs fs' h
    have hf := file_same P hn f g h
    simp only [mainLoop]
    rw [hf.err, hf.g, hf.ops]
    cases (processFile P f g fs).err with
    | some e => exact ⟨rfl, rfl, hf.related⟩
    | none =>
      obtain ⟨h1, h2, h3⟩ := ih (processFile P f g fs).g hf.related
      simp only
      exact ⟨h1, by rw [h2], h3⟩

/-! ## Files are not removed -/

theorem related_refl (fs : FS) : Related m m' fs fs fs fs := fun _ => .inl ⟨rfl, rfl⟩

theorem atTime_self (P : Prm) : atTime P P.env.now = P := rfl

/-- a file that is not there at the end was not there before -/
theorem related_self {a fs : FS} (h : Related m m' a a fs fs) {p : Str} (hp : fs.get? p = none) : a.get? p = none := by
  rcases h p with h | ⟨s, _, h, _⟩
  · rw [← h.1, hp]
  · rw [hp] at h; cases h

theorem items_append (P : Prm) (o : ObsIn) (sampling : Option Int) (xyz : Dict DateTime Pos) (l k : List ObsItem) : ∀ last s,
    runItems P o sampling xyz (l ++ k) last s = runItems P o sampling xyz l last s ∨
      (runItems P o sampling xyz l last s).2 = none ∧ ∃ last', runItems P o sampling xyz (l ++ k) last s = runItems P o sampling xyz k last' (runItems P o sampling xyz l last s).1 := by
  induction l with
  | nil => exact fun last s => .inr ⟨rfl, last, rfl⟩
  | cons it l ih =>
    intro last s
    simp only [List.cons_append, runItems]
    cases admit o sampling last it with
    | error e => exact .inl rfl
    | ok r =>
      cases r with
      | none => exact ih last s
      | some q =>
        obtain ⟨c, n, e, l'⟩ := q
        simp only
        cases (process P o xyz it c n e s).2 with
        | some er => exact .inl rfl
        | none => exact ih l' _

theorem file_keeps (P : Prm) (f : FileIn) (g : Glob) (fs : FS) (p : Str) (h : (processFile P f g fs).fs.get? p = none) : fs.get? p = none :=
  related_self (atTime_self P ▸ (file_same P (m' := P.env.now) rfl f g (related_refl fs)).related) h

theorem loop_keeps (P : Prm) (ins : List FileIn) (g : Glob) (fs : FS) (p : Str) (h : (mainLoop P ins g fs).2.1.get? p = none) : fs.get? p = none :=
  related_self (atTime_self P ▸ (loop_same P (m' := P.env.now) rfl ins g (related_refl fs)).2.2) h

theorem firstItems_files (P : Prm) (k : Nat) (f : FileIn) (g : Glob) (fs : FS) (p : Str) (h : (processFile P f g fs).fs.get? p = none) :
    (processFile P (firstItems k f) g fs).fs.get? p = none := by
  cases ho : f.opened with
  | error e =>
    have : firstItems k f = f := by
      unfold firstItems
      rw [ho]
      cases f
      simp only at ho
      subst ho
      rfl
    rw [this]; exact h
  | ok o =>
    have hk := file_keeps P f g fs p h
    have hop : (firstItems k f).opened = .ok { o with items := o.items.take k, stop := .ok () } := by
      unfold firstItems; rw [ho]; rfl
    have hxy : (firstItems k f).xyzData = f.xyzData := rfl
    unfold processFile at h ⊢
    rw [ho] at h
    rw [hop, hxy]
    simp only at h ⊢
    split
    · exact hk
    · rename_i h1
      rw [if_neg h1] at h
      split
      · exact hk
      · rename_i t sys h2
        rw [h2] at h
        simp only at h
        split
        · exact hk
        · rename_i h3
          rw [if_neg h3] at h
          split
          · exact hk
          · rename_i l h4
            rw [h4] at h
            simp only at h
            split
            · exact hk
            · rename_i xyz h5
              rw [h5] at h
              simp only at h
              have h0 : SameSt P.env.now P.env.now fs fs ⟨g, o.xyz, l, [], Writer.new, fs, []⟩ ⟨g, o.xyz, l, [], Writer.new, fs, []⟩ :=
                ⟨rfl, related_refl fs, fun sat i f h1 => by cases h1⟩
              have hs : SameSt P.env.now P.env.now fs fs (startState P o t l g fs) (startState P o t l g fs) :=
                (atTime_self P ▸ call_same P (m' := P.env.now) rfl o _ (atTime_self P ▸ call_same P (m' := P.env.now) rfl o _ h0).1).1
              have hA := (atTime_self P ▸ items_same P (m' := P.env.now) rfl o (samplingFor P.cfg o.interval) xyz (o.items.take k) none hs).1
              have hfs : ((runItems P o (samplingFor P.cfg o.interval) xyz o.items none (startState P o t l g fs)).1.fs).get? p = none := by
                split at h
                · exact h
                · split at h <;> exact h
              have hcut : ((runItems P o (samplingFor P.cfg o.interval) xyz (o.items.take k) none (startState P o t l g fs)).1.fs).get? p = none := by
                rcases items_append P o (samplingFor P.cfg o.interval) xyz (o.items.take k) (o.items.drop k) none (startState P o t l g fs) with h6 | ⟨-, last, h6⟩
                · rw [List.take_append_drop] at h6
                  rw [← h6]; exact hfs
                · rw [List.take_append_drop] at h6
                  rw [h6] at hfs
                  have hB := (atTime_self P ▸ items_same P (m' := P.env.now) rfl o (samplingFor P.cfg o.interval) xyz (o.items.drop k) last
                    (⟨rfl, related_refl _, hA.opened⟩ : SameSt P.env.now P.env.now _ _ _ _)).1
                  exact related_self hB.related hfs
              have hrun : ∀ its last s, runItems P { o with items := o.items.take k, stop := .ok () } (samplingFor P.cfg o.interval) xyz its last s =
                  runItems P o (samplingFor P.cfg o.interval) xyz its last s := by
                intro its
                induction its with
                | nil => exact fun _ _ => rfl
                | cons it its ih =>
                  intro last s
                  simp only [runItems, ih]
                  rfl
              have hst : startState P { o with items := o.items.take k, stop := .ok () } t l g fs = startState P o t l g fs := rfl
              rw [hrun, hst]
              split <;> exact hcut

theorem firstPart_files (P : Prm) (k : Nat) (p : Str) : ∀ (i : Nat) (ins : List FileIn) (g : Glob) (fs : FS), (mainLoop P ins g fs).2.1.get? p = none →
    (mainLoop P (firstPart i k ins) g fs).2.1.get? p = none := by
  intro i
  induction i with
  | zero =>
    intro ins g fs h
    cases ins with
    | nil => exact h
    | cons f files =>
      simp only [firstPart, mainLoop] at h ⊢
      have h1 : (processFile P f g fs).fs.get? p = none := by
        split at h
        · exact h
        · exact loop_keeps P files _ _ p h
      have h2 := firstItems_files P k f g fs p h1
      split <;> exact h2
  | succ i ih =>
    intro ins g fs h
    cases ins with
    | nil => exact h
    | cons f files =>
      simp only [firstPart, mainLoop] at h ⊢
      split
      · rename_i he
        rw [he] at h
        exact h
      · rename_i he
        rw [he] at h
        exact ih files _ _ h

end Verif.Proofs
