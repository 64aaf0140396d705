import Verif.Spec.Cols
import Verif.Props.ObsSame
import Verif.Props.SatOrder
/-!
# The columns of an observation file (C117, C118)
-/
namespace Verif.Props
open Verif.Py Verif.Model Verif.Spec Verif.Proofs

/-- two items that give the same: the same values under the used types -/
structure SameItem (it it' : ObsItem) : Prop where
  epoch : it'.epoch = it.epoch
  sat : it'.sat = it.sat
  xyz : it'.xyz = it.xyz
  data : ∀ code, ¬ Unused code → it'.data.get? code = it.data.get? code
  types : ∀ c, (it.types c = none ∧ it'.types c = none) ∨ ∃ ts ts', it.types c = some ts ∧ it'.types c = some ts' ∧ SameUsedTypes ts ts'

theorem unused_known {code : Str} (h : Unused code) : Known code := by
  obtain ⟨n, -, h⟩ := h
  exact ⟨n, h⟩

theorem used_of {n code : Str} (hn : n ∉ unusedFamilies) (h : Member n code) : ¬ Unused code := by
  rintro ⟨m, hm, h'⟩
  rw [C40_disjoint n m code h h'] at hn
  exact hn hm

theorem bit_used {k : Nat} {n : Str} (h : bitFamily k = some n) : n ∉ unusedFamilies := by
  unfold bitFamily at h
  split at h <;> first | (cases h; decide) | cases h

/-- the value of a family depends on the codes of the family only -/
theorem parseRec_family {α : Type} (r1 r2 : Dict Str α) (n : Str) (F : Fam) (hF : (n, F) ∈ named) (hobs : n.length = 2) (h : ∀ c, Member n c → r1.get? c = r2.get? c) :
    (parseRec r1).get? F = (parseRec r2).get? F := by
  have hk : ∀ c, Member n c → (c ∈ r1.keys ↔ c ∈ r2.keys) := by
    intro c hc; rw [← Dict.get?_isSome_iff, ← Dict.get?_isSome_iff, h c hc]
  rcases C41_choice r1 n F hF hobs with ⟨a1, a2⟩ | ⟨c, v, a1, a2, a3, a4⟩ <;>
  rcases C41_choice r2 n F hF hobs with ⟨b1, b2⟩ | ⟨d, w, b1, b2, b3, b4⟩
  · rw [a2, b2]
  · have : d ∈ r2.keys := (Dict.get?_isSome_iff _ _).1 (by rw [b1]; rfl)
    exact absurd b2 (a1 d ((hk d b2).2 this))
  · have : c ∈ r1.keys := (Dict.get?_isSome_iff _ _).1 (by rw [a1]; rfl)
    exact absurd a2 (b1 c ((hk c a2).1 this))
  · have hd : d ∈ r2.keys := (Dict.get?_isSome_iff _ _).1 (by rw [b1]; rfl)
    have hc : c ∈ r1.keys := (Dict.get?_isSome_iff _ _).1 (by rw [a1]; rfl)
    have h1 := (strLe_iff c d).2 ((a3 d ((hk d b2).2 hd) b2).imp Eq.symm id)
    have h2 := (strLe_iff d c).2 ((b3 c ((hk c a2).1 hc) a2).imp Eq.symm id)
    have := strLe_antisymm c d h1 h2
    subst this
    rw [h c a2, b1] at a1
    cases a1
    rw [a4, b4]

theorem validity_members {e e' p p' : List Str} (he : SameUsedTypes e e') (hp : SameUsedTypes p p') : evalValidity e' p' = evalValidity e p := by
  by_cases h : ∃ o ∈ e ++ p, ¬ Known o
  · rw [(C42_unknown e p).1 h, (C42_unknown e' p').1]
    obtain ⟨o, ho, hk⟩ := h
    have hu : ¬ Unused o := fun h => hk (unused_known h)
    refine ⟨o, ?_, hk⟩
    rw [List.mem_append, he o hu, hp o hu]
    exact List.mem_append.1 ho
  · have hall : ∀ o ∈ e ++ p, Known o := fun o ho => by
      by_contra hk
      exact h ⟨o, ho, hk⟩
    have he' : ∀ o ∈ e', Known o := fun o ho => by
      by_cases hu : Unused o
      · exact unused_known hu
      · exact hall o (by simp [(he o hu).1 ho])
    have hp' : ∀ o ∈ p', Known o := fun o ho => by
      by_cases hu : Unused o
      · exact unused_known hu
      · exact hall o (by simp [(hp o hu).1 ho])
    exact C42_sets e' e p' p he' (fun o ho => hall o (by simp [ho])) hp' (fun o ho => hall o (by simp [ho]))
      (fun o ⟨_, _, hb, hm⟩ => he o (used_of (bit_used hb) hm)) (fun o ⟨_, _, hb, hm⟩ => hp o (used_of (bit_used hb) hm))

theorem values_sameItem {it it' : ObsItem} (h : SameItem it it') (P : Prm) (c : Char) (glo : Rat × Rat) (el az : Rat) (sp x l : Pos) :
    values P it' c glo el az sp x l = values P it c glo el az sp x l := by
  have hrec : ∀ n F, (n, F) ∈ named ∧ n.length = 2 ∧ n ∉ unusedFamilies → (parseRec it'.data).get? F = (parseRec it.data).get? F := fun n F ⟨h1, h2, h3⟩ =>
    parseRec_family it'.data it.data n F h1 h2 fun c hc => h.data c (used_of h3 hc)
  have C1 := hrec (c% "C1") Lbl.C1 (by decide)
  have C2 := hrec (c% "C2") Lbl.C2 (by decide)
  have C5 := hrec (c% "C5") Lbl.C5 (by decide)
  have C6 := hrec (c% "C6") Lbl.C6 (by decide)
  have C7 := hrec (c% "C7") Lbl.C7 (by decide)
  have C8 := hrec (c% "C8") Lbl.C8 (by decide)
  have P1 := hrec (c% "P1") Lbl.P1 (by decide)
  have P2 := hrec (c% "P2") Lbl.P2 (by decide)
  have L1 := hrec (c% "L1") Lbl.L1 (by decide)
  have L2 := hrec (c% "L2") Lbl.L2 (by decide)
  have L5 := hrec (c% "L5") Lbl.L5 (by decide)
  have L6 := hrec (c% "L6") Lbl.L6 (by decide)
  have L7 := hrec (c% "L7") Lbl.L7 (by decide)
  have L8 := hrec (c% "L8") Lbl.L8 (by decide)
  have S1 := hrec (c% "S1") Lbl.S1 (by decide)
  have S2 := hrec (c% "S2") Lbl.S2 (by decide)
  have S5 := hrec (c% "S5") Lbl.S5 (by decide)
  have htec : ∀ (a b d : Bool) f, tecAll a b d f (dsVal it'.data) = tecAll a b d f (dsVal it.data) := by
    intro a b d f
    unfold tecAll tecSteps dsVal
    rw [C1, C2, C5, C6, C7, C8, P1, P2, L1, L2, L5, L6, L7, L8]
  have hchunk : ∀ t v, chunk it'.data t v el az sp x l = chunk it.data t v el az sp x l := by
    intro t v
    unfold chunk dsVal dsLli
    rw [C1, C2, C5, P1, P2, L1, L2, L5, S1, S2, S5]
  have hmem : SameUsedTypes (validityTypes it.data) (validityTypes it'.data) := by
    intro t ht
    unfold validityTypes lliType dsLli
    rw [L1, L2, L5]
    simp only [List.mem_append, List.mem_filter, ← Dict.get?_isSome_iff, h.data t ht]
  unfold values
  simp only [htec]
  rcases h.types c with ⟨h1, h2⟩ | ⟨ts, ts', h1, h2, h3⟩
  · rw [h1, h2]
  · rw [h1, h2]
    simp only [validity_members h3 hmem, hchunk]

theorem process_sameItem {it it' : ObsItem} (h : SameItem it it') (P : Prm) (o : ObsIn) (xyz : Dict DateTime Pos) (c : Char) (n : Int) (e : DateTime) (s : St) :
    process P o xyz it' c n e s = process P o xyz it c n e s := by
  unfold process emitStage outStage
  simp only [values_sameItem h, h.sat, h.xyz]

theorem admit_sameItem {it it' : ObsItem} (h : SameItem it it') (o : ObsIn) (sampling : Option Int) (last : Option DateTime) : admit o sampling last it' = admit o sampling last it := by
  unfold admit decode
  rw [h.sat, h.epoch]

theorem runItems_sameItems (P : Prm) (o : ObsIn) (sampling : Option Int) (xyz : Dict DateTime Pos) {its its' : List ObsItem} (h : List.Forall₂ SameItem its its') :
    ∀ last s, runItems P o sampling xyz its' last s = runItems P o sampling xyz its last s := by
  induction h with
  | nil => intro _ _; rfl
  | cons h _ ih =>
    intro last s
    unfold runItems
    simp only [admit_sameItem h, process_sameItem h, ih]

theorem runItems_other (P : Prm) (o : ObsIn) (i : List ObsItem) (sampling : Option Int) (xyz : Dict DateTime Pos) (its : List ObsItem) :
    ∀ last s, runItems P { o with items := i } sampling xyz its last s = runItems P o sampling xyz its last s := by
  induction its with
  | nil => intro _ _; rfl
  | cons it its ih =>
    intro last s
    unfold runItems
    simp only [ih]
    rfl

/-- what the program knows of two observation files is the same but for the order of the types -/
def SameButTypes (o o' : ObsIn) : Prop := ∃ items', o' = { o with items := items' } ∧ List.Forall₂ SameItem o.items items'

theorem processFile_same {o o' : ObsIn} (h : SameButTypes o o') (P : Prm) (x : Except PyErr (Dict DateTime Pos)) (g : Glob) (fs : FS) :
    processFile P ⟨.ok o', x⟩ g fs = processFile P ⟨.ok o, x⟩ g fs := by
  obtain ⟨items', rfl, hi⟩ := h
  unfold processFile
  simp only [runItems_other, runItems_sameItems P o _ _ hi]
  rfl

/-- two files that are processed in the same way -/
def Alike (P : Prm) (f f' : FileIn) : Prop := ∀ g fs, processFile P f' g fs = processFile P f g fs

theorem mainLoop_alike (P : Prm) {files files' : List FileIn} (h : List.Forall₂ (Alike P) files files') : ∀ g fs, mainLoop P files' g fs = mainLoop P files g fs := by
  induction h with
  | nil => intro _ _; rfl
  | cons h _ ih =>
    intro g fs
    unfold mainLoop
    simp only [h g fs, ih]

theorem allOf_alike (P : Prm) {f f' : Str → Option FileIn} {l : List Str} (h : ∀ a ∈ l, Option.Rel (Alike P) (f a) (f' a)) :
    Option.Rel (List.Forall₂ (Alike P)) (allOf f l) (allOf f' l) := by
  induction l with
  | nil => exact .some .nil
  | cons a l ih =>
    have h1 := h a (by simp)
    have h2 := ih fun b hb => h b (by simp [hb])
    unfold allOf
    cases hfa : f a <;> cases hfa' : f' a <;> rw [hfa, hfa'] at h1 <;> cases h1
    · exact .none
    · rename_i h1
      simp only [Option.bind_some]
      cases ha : allOf f l <;> cases ha' : allOf f' l <;> rw [ha, ha'] at h2 <;> cases h2
      · exact .none
      · rename_i h2
        exact .some (.cons h1 h2)

theorem zip_keys {α β : Type} (a : List α) : ∀ b : List β, ((a.zip b).map Prod.fst).Sublist a := by
  induction a with
  | nil => intro b; simp
  | cons x a ih =>
    intro b
    cases b with
    | nil => simp
    | cons y b => exact (ih b).cons_cons x

theorem get_zip {β : Type} {ts : List Str} (hn : ts.Nodup) (fs : List Spec.Field) (f : Spec.Field → β) (k : Str) (v : β) :
    Dict.get? (ts.zip (fs.map f)) k = some v ↔ ∃ x, (k, x) ∈ ts.zip fs ∧ f x = v := by
  have hk : Dict.keys (ts.zip (fs.map f)) |>.Nodup := hn.sublist (zip_keys ..)
  have hz : ts.zip (fs.map f) = (ts.zip fs).map fun p => (p.1, f p.2) := by rw [List.zip_map_right]; rfl
  constructor
  · intro h
    have := Dict.get?_mem _ k v h
    rw [hz, List.mem_map] at this
    obtain ⟨⟨a, b⟩, h1, h2⟩ := this
    cases h2
    exact ⟨b, h1, rfl⟩
  · rintro ⟨x, hx, rfl⟩
    refine Dict.mem_get? _ k _ hk ?_
    rw [hz, List.mem_map]
    exact ⟨(k, x), hx, rfl⟩

theorem sameItem_of {ts ts' : List Str} (hn : ts.Nodup) (hn' : ts'.Nodup) {s s' : SatId × List Spec.Field} (h : SameUsedFields ts ts' s s') (f : Spec.Field → Option Rat × Int × Int)
    {t t' : DateTime} (ht : t' = t) {name : SatId → Str} {p : Pos} {tys tys' : Char → Option (List Str)}
    (htys : ∀ c, (tys c = none ∧ tys' c = none) ∨ ∃ a b, tys c = some a ∧ tys' c = some b ∧ SameUsedTypes a b) :
    SameItem ⟨some t, name s.1, ts.zip (s.2.map f), p, tys⟩ ⟨some t', name s'.1, ts'.zip (s'.2.map f), p, tys'⟩ where
  epoch := by rw [ht]
  sat := by rw [h.sat]
  xyz := rfl
  data := by
    intro k hk
    show Dict.get? (ts'.zip (s'.2.map f)) k = Dict.get? (ts.zip (s.2.map f)) k
    ext v
    rw [get_zip hn', get_zip hn]
    simp only [h.fields k _ hk]
  types := htys

theorem flatMap_forall₂ {α β γ δ : Type} {R : α → β → Prop} {S : γ → δ → Prop} {f : α → List γ} {g : β → List δ} {l : List α} {m : List β}
    (h : List.Forall₂ R l m) (hf : ∀ a b, R a b → List.Forall₂ S (f a) (g b)) : List.Forall₂ S (l.flatMap f) (m.flatMap g) := by
  induction h with
  | nil => exact .nil
  | cons h _ ih =>
    rw [List.flatMap_cons, List.flatMap_cons]
    exact List.rel_append (hf _ _ h) ih

theorem obsIn_but {o o' : ObsIn} (h1 : o'.filename = o.filename) (h2 : o'.fileDate = o.fileDate) (h3 : o'.system = o.system) (h4 : o'.tofo = o.tofo) (h5 : o'.xyz = o.xyz)
    (h6 : o'.interval = o.interval) (h7 : List.Forall₂ SameItem o.items o'.items) (h8 : o'.stop = o.stop) : SameButTypes o o' := by
  refine ⟨o'.items, ?_, h7⟩
  cases o; cases o'; simp_all

/-- C118, opening, RINEX 2 -/
theorem C118_open2 (D D' : Disk) (fuel : Nat) (path : Str) (file file' : List Str) (hr : ReadAs D path file) (hr' : ReadAs D' path file') (h : SameUsed2 file file') :
    ∃ o o', obsFile D fuel path = some (.ok o) ∧ obsFile D' fuel path = some (.ok o') ∧ SameButTypes o o' := by
  obtain ⟨v, v', sys, hs, hs', ts, ts', es, es', h1, h2, hv, hms, hpos, hto, hts, hobs⟩ := h
  obtain ⟨o, e1, p1⟩ := C73_open2 D fuel path file v sys hs ts es hr h1
  obtain ⟨o', e2, p2⟩ := C73_open2 D' fuel path file' v' sys hs' ts' es' hr' h2
  refine ⟨o, o', e1, e2, ?_⟩
  have htimes : es.map (·.time) = es'.map (·.time) := by
    refine List.forall₂_eq_eq_eq ▸ ?_
    rw [List.forall₂_map_left_iff, List.forall₂_map_right_iff]
    exact hobs.imp fun _ _ h => h.1.symm
  apply obsIn_but
  · rw [p2.filename, p1.filename]
  · exact fileDate_same p2.date p1.date
  · rw [p2.system, p1.system]
  · rw [p2.tofo, p1.tofo, hto]
  · rw [p2.xyz, p1.xyz, hpos]
  · obtain ⟨i, i1, i2⟩ := p1.interval
    obtain ⟨j, j1, j2⟩ := p2.interval
    rw [← htimes] at j1
    have := mostFrequent_unique i1 j1
    subst this
    refine stored_ms hv.symm (spacing_ms ?_ i (List.mem_of_mem_take i1.1)) j2 i2
    intro t ht
    obtain ⟨e, he, rfl⟩ := List.mem_map.1 ht
    exact hms e he
  · rw [p2.items, p1.items, ← hpos]
    refine flatMap_forall₂ hobs fun e e' he => ?_
    unfold Epoch.items
    rw [List.forall₂_map_left_iff, List.forall₂_map_right_iff]
    exact he.2.imp fun s s' hs => sameItem_of h1.types.2.2 h2.types.2.2 hs _ he.1 (name := SatId.name) fun _ => .inr ⟨ts, ts', rfl, rfl, hts⟩
  · rw [p2.stop, p1.stop]

theorem forall₂_members {α β : Type} {R : α → β → Prop} {l : List α} {m : List β} (h : List.Forall₂ R l m) : List.Forall₂ (fun a b => a ∈ l ∧ b ∈ m ∧ R a b) l m := by
  induction h with
  | nil => exact .nil
  | cons h _ ih => exact .cons ⟨by simp, by simp, h⟩ (ih.imp fun _ _ ⟨h1, h2, h3⟩ => ⟨by simp [h1], by simp [h2], h3⟩)

theorem obsOf3_ok {m : TypeMap} {items : List Item3} (h : ∀ i ∈ items, i.Ok m) : ∀ e ∈ obsOf3 items, ∀ s ∈ e.2, ∃ ts, m.of s.1.sys = some ts ∧ ts.Nodup := by
  intro e he s hs
  obtain ⟨i, hi, hie⟩ := List.mem_filterMap.1 he
  cases i with
  | event e => cases hie
  | obs x =>
    cases hie
    obtain ⟨-, -, -, hx⟩ := h _ hi
    obtain ⟨-, ⟨ts, t1, t2, -⟩, -⟩ := hx s hs
    exact ⟨ts, t1, t2⟩

/-- C118, opening, RINEX 3 -/
theorem C118_open3 (D D' : Disk) (path : Str) (file file' : List Str) (hr : ReadAs D path file) (hr' : ReadAs D' path file') (h : SameUsed3 file file') :
    ∃ n o o', ∀ fuel, n ≤ fuel → obsFile D fuel path = some (.ok o) ∧ obsFile D' fuel path = some (.ok o') ∧ SameButTypes o o' := by
  obtain ⟨v, sys, hs, hs', items, items', a, b, h1, h2, ha, hb, htm, hpos, hto, hobs⟩ := h
  obtain ⟨n, o, e1, p1⟩ := C73_open3 D path file v sys hs items a b hr h1
  obtain ⟨n', o', e2, p2⟩ := C73_open3 D' path file' v sys hs' items' a b hr' h2
  refine ⟨max n n', o, o', fun fuel hf => ⟨e1 fuel (le_trans (le_max_left ..) hf), e2 fuel (le_trans (le_max_right ..) hf), ?_⟩⟩
  apply obsIn_but
  · rw [p2.filename, p1.filename]
  · exact fileDate_same p2.date p1.date
  · rw [p2.system, p1.system]
  · rw [p2.tofo, p1.tofo, hto]
  · rw [p2.xyz, p1.xyz, hpos]
  · exact stored_ms Iff.rfl (instant_ms ha hb) p2.interval p1.interval
  · rw [p2.items, p1.items, ← hpos, items3_obs, items3_obs]
    have hobs := forall₂_members hobs
    refine flatMap_forall₂ hobs fun e e' he => ?_
    rw [List.forall₂_map_left_iff, List.forall₂_map_right_iff]
    refine (forall₂_members he.2.2.2).imp fun s s' hs => ?_
    obtain ⟨hs1, hs2, hs⟩ := hs
    obtain ⟨ts, t1, t2⟩ := obsOf3_ok h1.body e he.1 s hs1
    obtain ⟨ts', t1', t2'⟩ := obsOf3_ok h2.body e' he.2.1 s' hs2
    have hsys : s'.1.sys = s.1.sys := by rw [hs.sat]
    rw [hsys] at t1' ⊢
    exact sameItem_of (by rw [t1]; exact t2) (by rw [t1']; exact t2') hs _ he.2.2.1 (name := SatId.name3) htm
  · rw [p2.stop, p1.stop]

/-- C118: if an observation file is written anew with the observation types in another order and with or without columns of unused types, the run is the same: the same output files, the same
calls of the writer, and it ends in the same way. -/
theorem C118_run (X : Ext) (D D' : Disk) (cfg : Cfg) (fs : FS) (paths : List Str) (path : Str) (file file' : List Str) (hn : PlainNames D cfg.obsDir)
    (hf : InputFiles D cfg.obsDir paths) (hnav : FileNames D cfg.navDir) (hd : Elsewhere D D' path) (hr : ReadAs D path file) (hr' : ReadAs D' path file')
    (h : SameUsed2 file file' ∨ SameUsed3 file file') :
    ∃ n, ∀ fuel, n ≤ fuel → program X D' cfg fuel fs = program X D cfg fuel fs := by
  have hopen : ∃ n, ∀ fuel, n ≤ fuel → ∃ o o', obsFile D fuel path = some (.ok o) ∧ obsFile D' fuel path = some (.ok o') ∧ SameButTypes o o' := by
    rcases h with h | h
    · exact ⟨0, fun fuel _ => C118_open2 D D' fuel path file file' hr hr' h⟩
    · obtain ⟨n, o, o', h⟩ := C118_open3 D D' path file file' hr hr' h
      exact ⟨n, fun fuel hfu => ⟨o, o', h fuel hfu⟩⟩
  obtain ⟨n, hopen⟩ := hopen
  refine ⟨n, fun fuel hfu => ?_⟩
  obtain ⟨name, hat, comp, hl, ho⟩ : ∃ name hat comp, LastComponent path name ∧ ObsName name hat comp := by
    obtain ⟨dir, name, hat, comp, hp, ho, -⟩ := hr.treated
    have hs : '/' ∉ name := (obsName_word ho).2
    exact ⟨name, hat, comp, ⟨hs, hp.imp id fun h => ⟨dir, h.1⟩⟩, ho⟩
  have hfile : ∀ p b, Option.Rel (Alike (prmOf X D cfg)) (fileIn D fuel b p) (fileIn D' fuel b p) := by
    intro p b
    unfold fileIn
    rw [xyz_elsewhere hd hl ho]
    by_cases hp : p = path
    · subst hp
      obtain ⟨o, o', e1, e2, hs⟩ := hopen fuel hfu
      rw [e1, e2]
      simp only [Option.bind_some]
      cases xyzData D b p with
      | none => exact .none
      | some x => exact .some fun g fs => processFile_same hs _ x g fs
    · rw [obs_elsewhere hd fuel hp]
      cases (obsFile D fuel p).bind fun o => (xyzData D b p).map fun x => (⟨o, x⟩ : FileIn) with
      | none => exact .none
      | some f => exact .some fun _ _ => rfl
  unfold program
  rw [obsFiles_elsewhere hd, someXyz_elsewhere hd, (C72_files D cfg paths hn).2 hf, prm_elsewhere X hd hl ho hnav]
  cases paths with
  | nil => rfl
  | cons p ps =>
    simp only
    have hall := allOf_alike (prmOf X D cfg) (f := fileIn D fuel (someXyz D cfg)) (f' := fileIn D' fuel (someXyz D cfg)) (l := p :: ps) fun a _ => hfile a _
    cases ha : allOf (fileIn D fuel (someXyz D cfg)) (p :: ps) <;> cases ha' : allOf (fileIn D' fuel (someXyz D cfg)) (p :: ps) <;> rw [ha, ha'] at hall <;> cases hall
    rename_i hall
    simp only [Option.map_some, mainLoop_alike _ hall]

theorem used_of_cols {ts ts' : List Str} {s s' : SatId × List Spec.Field} (h : SameFields ts ts' s s') : SameUsedFields ts ts' s s' := ⟨h.sat, fun _ _ _ => h.fields.mem_iff⟩

theorem used2_of_cols {file file' : List Str} (h : SameCols2 file file') : SameUsed2 file file' := by
  obtain ⟨v, v', sys, hs, hs', ts, ts', es, es', h1, h2, hv, hms, hpos, hto, hts, hobs⟩ := h
  exact ⟨v, v', sys, hs, hs', ts, ts', es, es', h1, h2, hv, hms, hpos, hto, fun _ _ => hts.mem_iff, hobs.imp fun _ _ h => ⟨h.1, h.2.imp fun _ _ => used_of_cols⟩⟩

theorem used3_of_cols {file file' : List Str} (h : SameCols3 file file') : SameUsed3 file file' := by
  obtain ⟨v, sys, hs, hs', items, items', a, b, h1, h2, ha, hb, htm, hpos, hto, hobs⟩ := h
  exact ⟨v, sys, hs, hs', items, items', a, b, h1, h2, ha, hb, fun c => (htm c).imp id fun ⟨x, y, e1, e2, e3⟩ => ⟨x, y, e1, e2, fun _ _ => e3.mem_iff⟩, hpos, hto,
    hobs.imp fun _ _ h => ⟨h.1, h.2.imp fun _ _ => used_of_cols⟩⟩

/-- C117: if an observation file is written anew with the observation types in another order, and the observations accordingly, the run is the same: the same output files, the same
calls of the writer, and it ends in the same way. -/
theorem C117_run (X : Ext) (D D' : Disk) (cfg : Cfg) (fs : FS) (paths : List Str) (path : Str) (file file' : List Str) (hn : PlainNames D cfg.obsDir)
    (hf : InputFiles D cfg.obsDir paths) (hnav : FileNames D cfg.navDir) (hd : Elsewhere D D' path) (hr : ReadAs D path file) (hr' : ReadAs D' path file')
    (h : SameCols2 file file' ∨ SameCols3 file file') :
    ∃ n, ∀ fuel, n ≤ fuel → program X D' cfg fuel fs = program X D cfg fuel fs :=
  C118_run X D D' cfg fs paths path file file' hn hf hnav hd hr hr' (h.imp used2_of_cols used3_of_cols)

end Verif.Props

namespace Verif.Props.ProgEx
open Verif.Py Verif.Spec Verif.Model Verif.Proofs

/-- the types in the other order -/
def epochC (s : Nat) : Epoch := { epoch s with sats := (epoch s).sats.map fun x => (x.1, x.2.reverse) }

theorem epochC_ok {s : Nat} (h : s < 60) : (epochC s).Ok 3 := by
  obtain ⟨a, b, c, d, e, f⟩ := epoch_ok h
  refine ⟨a, b, c, d, by simpa [epochC] using e, fun s' hs => ?_⟩
  obtain ⟨x, hx, rfl⟩ := List.mem_map.1 hs
  obtain ⟨f1, f2, f3⟩ := f x hx
  exact ⟨f1, by simpa using f2, fun y hy => f3 y (by simpa using hy)⟩

def obsLinesC : List Str :=
  [HLine.render 211 (.version 211 'O' 'M' obsWords), HLine.render 211 (.firstObs ⟨2017, 1, 2, 3, 4, 0, 0⟩ 0 (c% "GPS")), HLine.render 211 (.position 10000 20000 30000)] ++
    typeLines exTypes.reverse ++ [] ++ hline [] lblEnd :: bodyLines [.obs (epochC 0), .obs (epochC 30)]

theorem columns2 : File2 obsLinesC 211 'M' head exTypes.reverse [epochC 0, epochC 30] where
  version := by decide
  text := by
    refine ⟨[HLine.render 211 (.version 211 'O' 'M' obsWords), HLine.render 211 (.firstObs ⟨2017, 1, 2, 3, 4, 0, 0⟩ 0 (c% "GPS")), HLine.render 211 (.position 10000 20000 30000)],
      typeLines exTypes.reverse, [], head, [], 'O', obsWords, hline [] lblEnd, bodyLines [.obs (epochC 0), .obs (epochC 30)], [.obs (epochC 0), .obs (epochC 30)],
      by decide, by decide, by decide, rfl, rfl, typeText_refl _, ?_, trivial, by decide +kernel, by decide +kernel, by decide +kernel, written_refl _, rfl, ?_⟩
    · exact ⟨⟨[], by simp, by simp⟩, ⟨[], by simp, by simp⟩, ⟨[], by simp, by simp⟩, trivial⟩
    · intro i hi
      simp only [List.mem_cons, List.not_mem_nil, or_false] at hi
      rcases hi with rfl | rfl
      · exact ⟨epochC_ok (by decide), fun _ h => nomatch h⟩
      · exact ⟨epochC_ok (by decide), fun _ h => nomatch h⟩
  header := C73_hypotheses.header
  types := by decide
  epochs := by
    intro e he
    simp only [List.mem_cons, List.not_mem_nil, or_false] at he
    rcases he with rfl | rfl
    · simp [epochC, epoch]
    · simp [epochC, epoch]
  two := by decide
  increasing := by decide +kernel
  span := by decide +kernel

def diskC : Disk := { disk with lines := fun f p => if f = .plain ∧ p = obsPath then .ok obsLinesC else disk.lines f p }

/-- the files of the example differ in the order of the types -/
theorem C117_hypotheses : SameCols2 obsLines obsLinesC ∧ obsLinesC ≠ obsLines ∧ Elsewhere disk diskC obsPath ∧ ReadAs disk obsPath obsLines ∧ ReadAs diskC obsPath obsLinesC := by
  refine ⟨⟨211, 211, 'M', head, head, exTypes, exTypes.reverse, _, _, C73_hypotheses, columns2, Iff.rfl, ?_, rfl, rfl, List.reverse_perm _, ?_⟩, by decide +kernel, ⟨fun _ => rfl, fun _ => rfl, ?_⟩, readAs, ?_⟩
  · intro e he
    simp only [List.mem_cons, List.not_mem_nil, or_false] at he
    rcases he with rfl | rfl <;> rfl
  · have h1 : ∀ (c : Char) (n x : Nat), SameFields exTypes exTypes.reverse (exSat c n x) ((exSat c n x).1, (exSat c n x).2.reverse) := fun c n x => ⟨rfl, List.reverse_perm (exTypes.zip (exSat c n x).2)⟩
    have h : ∀ s, (epochC s).time = (epoch s).time ∧ List.Forall₂ (SameFields exTypes exTypes.reverse) (epoch s).sats (epochC s).sats := fun s =>
      ⟨rfl, .cons (h1 ..) (.cons (h1 ..) .nil)⟩
    exact .cons (h 0) (.cons (h 30) .nil)
  · intro k p hp
    simp [diskC, hp]
  · exact ⟨by decide, c% "d", c% "irkj0020.17o", false, false, .inr ⟨rfl, no_slash_mark⟩, obsName, rfl⟩

/-- the run over the file with the types in the other order is the same -/
theorem C117_example : ∃ n, ∀ fuel, n ≤ fuel → program ext diskC cfg fuel [] = program ext disk cfg fuel [] :=
  C117_run ext disk diskC cfg [] [obsPath] obsPath obsLines obsLinesC plain inputs (by
    intro d hd l hl n hn
    have hd : d ∈ [c% "n"] := hd
    rw [List.mem_singleton] at hd
    subst hd
    have hl : Except.ok [c% "BRDC00IGS_R_20170020000_01D_MN.rnx"] = Except.ok l := hl
    cases hl
    revert n
    decide) C117_hypotheses.2.2.1 C117_hypotheses.2.2.2.1 C117_hypotheses.2.2.2.2 (.inl C117_hypotheses.1)

/-! ## The same for RINEX 3 -/

def fieldsG (rev : Bool) (a b : Spec.Field) : List Spec.Field := if rev then [b, a] else [a, b]

/-- two epochs; `rev`: the types of GPS in the other order; `turn`: the satellites of the first epoch in the other order -/
def items3C (rev turn : Bool) : List Item3 :=
  let g := (⟨'G', 5, false⟩, fieldsG rev (.val 20000000123 none (some 7)) .blank)
  let r := (⟨'R', 12, true⟩, [.val (-1500) none none])
  [.obs ⟨⟨2017, 2, 28, 23, 59, 30, 0⟩, 0, 0, none, if turn then [r, g] else [g, r]⟩,
   .obs ⟨⟨2017, 3, 1, 0, 0, 0, 0⟩, 0, 1, none, [(⟨'G', 31, false⟩, fieldsG rev .blank (.val 5 (some 1) none))]⟩]

def entries3C (rev : Bool) : List HEntry :=
  [.line (.firstObs ⟨2017, 2, 28, 23, 59, 30, 0⟩ 0 (c% "GPS")), .sys 'G' 2 (if rev then [⟨'L', '1', 'C'⟩, ⟨'C', '1', 'C'⟩] else [⟨'C', '1', 'C'⟩, ⟨'L', '1', 'C'⟩]), .line (.position 10000 20000 30000),
   .sys 'R' 1 [⟨'C', '1', 'P'⟩]]

def obsLines3C (rev turn : Bool) : List Str :=
  ((HEntry.line (.version 302 'O' 'M' obsWords) :: entries3C rev).map (HEntry.lines 302)).flatten.map (· ++ ['\n']) ++ (hline [] lblEnd ++ ['\n']) :: bodyLines3 (items3C rev turn)

theorem items3C_ok (rev turn : Bool) : ∀ i ∈ items3C rev turn, i.Ok (typeMapOf 302 (entries3C rev)) := by
  have f1 : (Spec.Field.val 20000000123 none (some 7)).Ok := ⟨by decide +kernel, by simp, by simp⟩
  have f2 : (Spec.Field.val (-1500) none none).Ok := ⟨by decide +kernel, by simp, by simp⟩
  have f3 : (Spec.Field.val 5 (some 1) none).Ok := ⟨by decide +kernel, by simp, by simp⟩
  have hf : ∀ a b : Spec.Field, a.Ok → b.Ok → ∀ f ∈ fieldsG rev a b, f.Ok := by
    intro a b ha hb f hf
    cases rev <;> simp [fieldsG] at hf <;> rcases hf with rfl | rfl <;> assumption
  have hG : ∃ ts, (typeMapOf 302 (entries3C rev)).of 'G' = some ts ∧ ts.Nodup ∧ 2 = ts.length := by
    cases rev <;> exact ⟨_, rfl, by decide, rfl⟩
  have hR : ∃ ts, (typeMapOf 302 (entries3C rev)).of 'R' = some ts ∧ ts.Nodup ∧ 1 = ts.length := by
    cases rev <;> exact ⟨_, rfl, by decide, rfl⟩
  have hlen : ∀ a b, (fieldsG rev a b).length = 2 := by intro a b; cases rev <;> rfl
  intro i hi
  simp only [items3C, List.mem_cons, List.not_mem_nil, or_false] at hi
  rcases hi with rfl | rfl
  · refine ⟨⟨(legal_iff _).2 (by cases turn <;> cases rev <;> decide), by cases turn <;> cases rev <;> decide, by cases turn <;> cases rev <;> decide⟩, by cases turn <;> cases rev <;> decide, by cases turn <;> cases rev <;> decide, ?_⟩
    intro s hs
    have hs : s = (⟨'G', 5, false⟩, fieldsG rev (.val 20000000123 none (some 7)) .blank) ∨ s = (⟨'R', 12, true⟩, [.val (-1500) none none]) := by
      cases turn <;> simp at hs <;> tauto
    rcases hs with rfl | rfl
    · exact ⟨by unfold SatId.Ok3; cases rev <;> decide, by simpa [hlen] using hG, hf _ _ f1 trivial⟩
    · refine ⟨by unfold SatId.Ok3; decide, by simpa using hR, ?_⟩
      intro f hf
      simp only [List.mem_cons, List.not_mem_nil, or_false] at hf
      subst hf
      exact f2
  · refine ⟨⟨(legal_iff _).2 (by cases rev <;> decide), by cases rev <;> decide, by cases rev <;> decide⟩, by cases rev <;> decide, by cases rev <;> decide, ?_⟩
    intro s hs
    simp only [List.mem_cons, List.not_mem_nil, or_false] at hs
    subst hs
    exact ⟨by unfold SatId.Ok3; cases rev <;> decide, by simpa [hlen] using hG, hf _ _ trivial f3⟩

theorem file3C (rev turn : Bool) : File3 (obsLines3C rev turn) 302 'M' (entries3C rev) (items3C rev turn) ⟨2017, 2, 28, 23, 59, 30, 0⟩ ⟨2017, 3, 1, 0, 0, 0, 0⟩ := by
  have hl1 : Legal ⟨2017, 2, 28, 23, 59, 30, 0⟩ := by simp only [Legal, LegalDate]; decide
  have hl2 : Legal ⟨2017, 3, 1, 0, 0, 0, 0⟩ := by simp only [Legal, LegalDate]; decide
  refine ⟨by decide, ⟨'O', obsWords, _, _, _, by decide, by decide, by decide, rfl, physical_nl _, ?_, by decide +kernel, written_refl _, ?_⟩, ?_, ?_, ?_,
    items3C_ok rev turn, ?_, ?_, ⟨hl1, hl2⟩, by decide +kernel, by decide +kernel⟩
  · cases rev <;> decide +kernel
  · cases rev <;> cases turn <;> decide +kernel
  · intro e he
    simp only [entries3C, List.mem_cons, List.not_mem_nil, or_false] at he
    rcases he with rfl | rfl | rfl | rfl
    · exact ⟨⟨hl1, (by decide : 100 ≤ 2017), by decide, rfl⟩, by simp⟩
    · refine ⟨by decide, by omega, ?_⟩
      simp only [Code.Ok]
      cases rev <;> decide
    · refine ⟨?_, by simp⟩
      show ∀ n ∈ _, _
      decide +kernel
    · refine ⟨by decide, by omega, ?_⟩
      simp only [Code.Ok]
      decide
  · intro s n codes hm
    simp only [entries3C, List.mem_cons, reduceCtorEq, HEntry.sys.injEq, List.not_mem_nil, or_false, false_or] at hm
    rcases hm with ⟨-, rfl, rfl⟩ | ⟨-, rfl, rfl⟩
    · cases rev <;> rfl
    · rfl
  · cases rev <;> exact ⟨by decide, by decide⟩
  · intro e he
    simp [items3C] at he
  · cases rev <;> cases turn <;> exact ⟨_, rfl, by decide⟩

/-- RINEX 3 files that differ in the order of the types -/
theorem C117_hypotheses3 : SameCols3 (obsLines3C false false) (obsLines3C true false) ∧ obsLines3C false false ≠ obsLines3C true false := by
  refine ⟨⟨302, 'M', _, _, _, _, _, _, file3C false false, file3C true false, rfl, rfl, ?_, rfl, rfl, ?_⟩, by decide +kernel⟩
  · intro c
    by_cases h1 : c = 'G'
    · subst h1
      exact .inr ⟨[c% "C1C", c% "L1C"], [c% "L1C", c% "C1C"], rfl, rfl, List.Perm.swap ..⟩
    · by_cases h2 : c = 'R'
      · subst h2
        exact .inr ⟨[c% "C1P"], [c% "C1P"], rfl, rfl, .refl _⟩
      · left
        have h1' : ¬ 'G' = c := fun h => h1 h.symm
        have h2' : ¬ 'R' = c := fun h => h2 h.symm
        constructor <;> simp [TypeMap.of, typeMapOf, entries3C, h1', h2']
  · exact .cons ⟨rfl, .cons ⟨rfl, List.Perm.swap ..⟩ (.cons ⟨rfl, .refl _⟩ .nil)⟩ (.cons ⟨rfl, .cons ⟨rfl, List.Perm.swap ..⟩ .nil⟩ .nil)

/-- RINEX 3 files that differ in the order of the satellites -/
theorem C116_hypotheses3 : SameSats3 (obsLines3C false false) (obsLines3C false true) ∧ obsLines3C false false ≠ obsLines3C false true := by
  refine ⟨⟨302, 'M', _, _, _, _, _, _, file3C false false, file3C false true, rfl, rfl, rfl, rfl, rfl, ?_⟩, by decide +kernel⟩
  exact .cons ⟨rfl, List.Perm.swap .., by decide +kernel⟩ (.cons ⟨rfl, .refl _, by decide +kernel⟩ .nil)

/-! ## A column of signal strengths at the seventh frequency -/

/-- with a fourth column, with and without value -/
def epochU (s : Nat) : Epoch := { epoch s with sats := [((exSat 'G' 1 123456).1, .val 45000 none none :: (exSat 'G' 1 123456).2), ((exSat 'R' 24 99).1, .blank :: (exSat 'R' 24 99).2)] }

def typesU : List Str := (c% "S7") :: exTypes

theorem epochU_ok {s : Nat} (h : s < 60) : (epochU s).Ok 4 := by
  obtain ⟨a, b, c, d, e, f⟩ := epoch_ok h
  refine ⟨a, b, c, d, e, fun s' hs => ?_⟩
  have f1 : (Spec.Field.val 45000 none none).Ok := ⟨by decide +kernel, by simp, by simp⟩
  have hs : s' ∈ [((exSat 'G' 1 123456).1, .val 45000 none none :: (exSat 'G' 1 123456).2), ((exSat 'R' 24 99).1, .blank :: (exSat 'R' 24 99).2)] := hs
  simp only [List.mem_cons, List.not_mem_nil, or_false] at hs
  rcases hs with rfl | rfl
  · obtain ⟨x1, x2, x3⟩ := f (exSat 'G' 1 123456) (by simp [epoch])
    refine ⟨x1, by simp [x2], fun y hy => ?_⟩
    rcases List.mem_cons.1 hy with rfl | hy
    · exact f1
    · exact x3 y hy
  · obtain ⟨x1, x2, x3⟩ := f (exSat 'R' 24 99) (by simp [epoch])
    refine ⟨x1, by simp [x2], fun y hy => ?_⟩
    rcases List.mem_cons.1 hy with rfl | hy
    · trivial
    · exact x3 y hy

def obsLinesU : List Str :=
  [HLine.render 211 (.version 211 'O' 'M' obsWords), HLine.render 211 (.firstObs ⟨2017, 1, 2, 3, 4, 0, 0⟩ 0 (c% "GPS")), HLine.render 211 (.position 10000 20000 30000)] ++
    typeLines typesU ++ [] ++ hline [] lblEnd :: bodyLines [.obs (epochU 0), .obs (epochU 30)]

theorem unused2 : File2 obsLinesU 211 'M' head typesU [epochU 0, epochU 30] where
  version := by decide
  text := by
    refine ⟨[HLine.render 211 (.version 211 'O' 'M' obsWords), HLine.render 211 (.firstObs ⟨2017, 1, 2, 3, 4, 0, 0⟩ 0 (c% "GPS")), HLine.render 211 (.position 10000 20000 30000)],
      typeLines typesU, [], head, [], 'O', obsWords, hline [] lblEnd, bodyLines [.obs (epochU 0), .obs (epochU 30)], [.obs (epochU 0), .obs (epochU 30)],
      by decide, by decide, by decide, rfl, rfl, typeText_refl _, ?_, trivial, by decide +kernel, by decide +kernel, by decide +kernel, written_refl _, rfl, ?_⟩
    · exact ⟨⟨[], by simp, by simp⟩, ⟨[], by simp, by simp⟩, ⟨[], by simp, by simp⟩, trivial⟩
    · intro i hi
      simp only [List.mem_cons, List.not_mem_nil, or_false] at hi
      rcases hi with rfl | rfl
      · exact ⟨epochU_ok (by decide), fun _ h => nomatch h⟩
      · exact ⟨epochU_ok (by decide), fun _ h => nomatch h⟩
  header := C73_hypotheses.header
  types := by decide
  epochs := by
    intro e he
    simp only [List.mem_cons, List.not_mem_nil, or_false] at he
    rcases he with rfl | rfl
    · simp [epochU]
    · simp [epochU]
  two := by decide
  increasing := by decide +kernel
  span := by decide +kernel

theorem s7_unused : Unused (c% "S7") := ⟨c% "S7", by decide, .plain 'S' '7' (by decide) (by decide)⟩

/-- the files of the example differ in a column of S7 -/
theorem C118_hypotheses : SameUsed2 obsLines obsLinesU := by
  refine ⟨211, 211, 'M', head, head, exTypes, typesU, _, _, C73_hypotheses, unused2, Iff.rfl, ?_, rfl, rfl, ?_, ?_⟩
  · intro e he
    simp only [List.mem_cons, List.not_mem_nil, or_false] at he
    rcases he with rfl | rfl <;> rfl
  · intro c hc
    have : c ≠ c% "S7" := fun h => hc (h ▸ s7_unused)
    simp [typesU, this]
  · have h1 : ∀ (x : SatId × List Spec.Field) f, SameUsedFields exTypes typesU x (x.1, f :: x.2) := fun x f => ⟨rfl, fun c y hc => by
      have : c ≠ c% "S7" := fun h => hc (h ▸ s7_unused)
      simp [typesU, this]⟩
    have h : ∀ s, (epochU s).time = (epoch s).time ∧ List.Forall₂ (SameUsedFields exTypes typesU) (epoch s).sats (epochU s).sats := fun s =>
      ⟨rfl, .cons (h1 ..) (.cons (h1 ..) .nil)⟩
    exact .cons (h 0) (.cons (h 30) .nil)

end Verif.Props.ProgEx

namespace Verif.Props.MainEx
open Verif.Py Verif.Spec Verif.Model Verif.Proofs Verif.Props

/-- A column of Doppler shifts is not written, but it counts: without value it sets a bit of the validity value. -/
theorem C118_witness :
    let P := prm false none loadBoth posOk
    let it := item (c% "G01") 0 0
    let o : ObsIn := { obs with items := [it] }
    let o' : ObsIn := { obs with items := [{ it with data := it.data ++ [(c% "D1", (none, 0, 0))], types := fun c => (it.types c).map (· ++ [c% "D1"]) }] }
    let val := fun o => (mainLoop P [⟨.ok o, .ok []⟩] Glob.empty []).2.2.1.map fun ops => (writesOf ops).map fun w => w.2.2[12]?
    val o = [[some (some (.int 1))]] ∧ val o' = [[some (some (.int (1 + 2 ^ 9)))]] := by
  decide +kernel

end Verif.Props.MainEx
