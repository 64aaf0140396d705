import Verif.Spec.Run
import Verif.Proofs.MainThin
import Verif.Proofs.MainFile
/-!
# Proofs: the number of errors
-/
namespace Verif.Proofs
open Verif.Py Verif.Model Verif.Spec Verif.Props

/-- no arithmetic error is hidden in the cache -/
def Clean (P : Prm) (g : Glob) : Prop := ∀ c n e, g.satXyz.has (c, n, e) = true → ¬ ArithError P c n e

theorem clean_empty (P : Prm) : Clean P Glob.empty := by
  intro c n e h
  simp [Glob.empty, Dict.has, Dict.get?] at h

theorem nav_satXyz (P : Prm) (c : Char) (d : Date) (s : St) : (navStage P c d s).1.g.satXyz = s.g.satXyz := by
  unfold navStage
  simp only
  split <;> split
  · rfl
  · split
    · split <;> rfl
    · rfl
  · rfl
  · split
    · split <;> rfl
    · rfl

theorem has_set' {α β : Type} [DecidableEq α] (D : Dict α β) (k k' : α) (v : β) : (D.set k v).has k' = (decide (k = k') || D.has k') := by
  unfold Dict.has
  rw [Dict.get?_set]
  by_cases h : k = k' <;> simp [h]

theorem pos_satXyz (P : Prm) (c : Char) (n : Int) (e : DateTime) (s : St) (k : Char × Int × DateTime) (h : (posStage P c n e s).1.g.satXyz.has k = true) :
    s.g.satXyz.has k = true ∨ k = (c, n, e) := by
  unfold posStage at h
  split at h
  · exact .inl h
  · simp only at h
    have key : ∀ v, (s.g.satXyz.set (c, n, e) v).has k = true → s.g.satXyz.has k = true ∨ k = (c, n, e) := by
      intro v hv
      rw [has_set'] at hv
      simp only [Bool.or_eq_true, decide_eq_true_eq] at hv
      exact hv.symm.imp id Eq.symm
    have key2 : ∀ v w, ((s.g.satXyz.set (c, n, e) v).set (c, n, e) w).has k = true → s.g.satXyz.has k = true ∨ k = (c, n, e) := by
      intro v w hv
      rw [has_set'] at hv
      simp only [Bool.or_eq_true, decide_eq_true_eq] at hv
      rcases hv with hv | hv
      · exact .inr hv.symm
      · exact key v hv
    split at h
    · exact key _ h
    · exact key _ h
    · split at h
      · split at h <;> exact key _ h
      · split at h
        · split at h
          · exact key2 _ _ h
          · split at h <;> exact key2 _ _ h
          · exact key2 _ _ h
        · exact key2 _ _ h

/-- an item in the sense of the tables -/
def Hit (P : Prm) (xyz : Dict DateTime Pos) (it : ObsItem) (c : Char) (n : Int) (e : DateTime) : Prop :=
  ∃ p er, posOf P c n e = some p ∧ P.elAz (siteOf xyz it e) p = .error er ∧ er ∈ arithmetic

theorem itemError_iff (P : Prm) (xyz : Dict DateTime Pos) (it : ObsItem) (c : Char) (n : Int) (e : DateTime) :
    ItemError P xyz it c n e ↔ ArithError P c n e ∨ Hit P xyz it c n e := by
  unfold ItemError Hit
  apply or_congr Iff.rfl
  constructor
  · rintro ⟨x, p, er, h1, h2, h3, h4⟩
    rw [siteAt_iff] at h1
    subst h1
    exact ⟨p, er, (satAt_iff ..).1 h2, h3, by simpa [arithmetic, Arithmetic] using h4⟩
  · rintro ⟨p, er, h2, h3, h4⟩
    exact ⟨_, p, er, (siteAt_iff ..).2 rfl, (satAt_iff ..).2 h2, h3, by simpa [arithmetic, Arithmetic] using h4⟩

theorem itemError_load {P : Prm} {xyz : Dict DateTime Pos} {it : ObsItem} {c : Char} {n : Int} {e : DateTime} (h : ItemError P xyz it c n e) :
    ∃ m, P.load e.date c = .ok m := by
  rcases h with ⟨dt, eph, ⟨f, m, h, -⟩, -⟩ | ⟨x, p, er, -, ⟨dt, eph, ⟨f, m, h, -⟩, -⟩, -⟩ <;> exact ⟨_, h⟩

theorem item_errors (P : Prm) (o : ObsIn) (xyz : Dict DateTime Pos) (it : ObsItem) (c : Char) (n : Int) (e : DateTime) (s : St) (h : SInv P e.date s)
    (hcl : Clean P s.g) (hr : (process P o xyz it c n e s).2 = none) :
    (errorsOf P o xyz it c n e s = 0 ↔ ¬ ItemError P xyz it c n e) ∧ (errorsOf P o xyz it c n e s = 0 → Clean P (process P o xyz it c n e s).1.g) := by
  obtain ⟨nf, nm, n1, n2, n3⟩ := navStage_spec P e.date c s h
  have hx1 := nav_satXyz P c e.date s
  have hm1 : (navStage P c e.date s).1.navMsg = nm := by rw [n1]
  unfold process at hr ⊢
  unfold errorsOf
  simp only at hr ⊢
  generalize navStage P c e.date s = A at *
  obtain ⟨a, fa⟩ := A
  simp only at n1 n2 n3 hx1 hm1 hr ⊢
  have hcla : Clean P a.g := by
    intro c' n' e' hh
    rw [hx1] at hh
    exact hcl c' n' e' hh
  cases hfa : fa with
  | stop er => rw [hfa] at hr; cases hr
  | skip =>
    simp only [true_iff]
    refine ⟨fun hi => ?_, fun _ => hcla⟩
    obtain ⟨m, hm⟩ := itemError_load hi
    rw [hfa] at n2
    unfold navFlow at n2
    rw [hm] at n2
    split at n2 <;> cases n2
  | next =>
    rw [hfa] at hr
    simp only at hr ⊢
    obtain ⟨i1, i2, i3⟩ := n3 (by rw [hfa]; simp)
    obtain ⟨sx, gf, p1, p2, p3⟩ := posStage_spec P c n e a i1 (by rw [hm1]; exact i2)
    have hkeys := pos_satXyz P c n e a
    have hm2 : (posStage P c n e a).1.navMsg = nm := by rw [p1]; exact hm1
    have hx2 : (posStage P c n e a).1.g.satXyz = sx := by rw [p1]
    have hg2 : (posStage P c n e a).1.g.gloFreq = gf := by rw [p1]
    rw [hx1] at p2
    generalize posStage P c n e a = B at *
    obtain ⟨b, fb⟩ := B
    simp only at p1 p2 p3 hkeys hm2 hx2 hg2 hr ⊢
    have hclb : ¬ ArithError P c n e → Clean P b.g := by
      intro hna c' n' e' hh
      rcases hkeys _ hh with hh | hh
      · exact hcla c' n' e' hh
      · cases hh; exact hna
    cases hfb : fb with
    | stop er => rw [hfb] at hr; cases hr
    | skip =>
      simp only [Nat.one_ne_zero, false_iff, not_not, false_imp_iff, and_true]
      rw [hfb] at p2
      split at p2
      · cases p2
      · exact .inl ((arith_iff ..).2 p2.symm)
    | next =>
      rw [hfb] at hr
      simp only at hr ⊢
      obtain ⟨j1, j2, j3⟩ := p3 (by rw [hfb]; simp)
      have hna : ¬ ArithError P c n e := by
        rw [hfb] at p2
        split at p2
        · rename_i hh; exact hcl c n e hh
        · intro ha; rw [(arith_iff ..).1 ha] at p2; cases p2
      obtain ⟨s1, s2, s3, -, s5, -, -⟩ := siteStage_spec P o xyz it e.date e b j1
      generalize siteStage P o xyz e it.xyz b = C at *
      obtain ⟨d, fd⟩ := C
      simp only at s1 s2 s3 s5 hr ⊢
      cases hfd : fd with
      | stop er => rw [hfd] at hr; cases hr
      | skip =>
        rw [hfd] at s1
        unfold siteFlow at s1
        split at s1 <;> cases s1
      | next =>
        obtain ⟨k1, k2⟩ := s5 hfd
        rw [hfd] at hr
        simp only at hr ⊢
        have hcached : d.g.satXyz.get? (c, n, e) = some (Proofs.posOf P c n e) := by rw [s2, hx2]; exact j2
        have hem := emitStage_spec P o xyz it c n e d k1 k2 hcached
          (by
            intro p hp hR
            rw [s2, hx2] at hp
            rw [s2, hg2]
            exact j3 p hp hR)
          (by rw [s3, hm2]; exact i2)
        refine ⟨?_, fun _ => ?_⟩
        · rw [hcached, k2, itemError_iff]
          have hor : ¬ (ArithError P c n e ∨ Hit P xyz it c n e) ↔ ¬ Hit P xyz it c n e := by
            constructor
            · exact fun hh hi => hh (.inr hi)
            · rintro hh (hi | hi)
              · exact hna hi
              · exact hh hi
          rw [hor]
          unfold Hit
          cases hp : Proofs.posOf P c n e with
          | none => simp
          | some p =>
            simp only [Option.some.injEq, exists_and_left, exists_eq_left']
            cases he : P.elAz (siteOf xyz it e) p with
            | ok r => simp
            | error er =>
              simp only [Except.error.injEq, exists_eq_left']
              by_cases hm : er ∈ arithmetic <;> simp [hm]
        · rw [hem.g, s2]
          exact hclb hna

theorem run_errors (P : Prm) (o : ObsIn) (xyz : Dict DateTime Pos) (items : List ObsItem) : ∀ last s, SInv P (dayOf o) s → Clean P s.g →
    (runItems P o none xyz items last s).2 = none →
    (errorsItems P o none xyz items last s = 0 ↔ ∀ it ∈ items, ∀ c n e, Considered o it c n e → ¬ ItemError P xyz it c n e) ∧
    (errorsItems P o none xyz items last s = 0 → Clean P (runItems P o none xyz items last s).1.g) := by
  induction items with
  | nil => intro last s _ hc _; simp only [errorsItems, runItems]; exact ⟨by simp, fun _ => hc⟩
  | cons it its ih =>
    intro last s h hcl hr
    simp only [runItems, errorsItems] at hr ⊢
    cases ha : admit o none last it with
    | error er => rw [ha] at hr; cases hr
    | ok a =>
      rw [ha] at hr
      cases a with
      | none =>
        simp only at hr ⊢
        obtain ⟨h1, h2⟩ := ih last s h hcl hr
        refine ⟨h1.trans ?_, h2⟩
        have hno : ∀ c n e, ¬ Considered o it c n e := by
          intro c n e hc
          have := ((admit_none ..).1 ha).2 c n e hc
          simp [decimate] at this
        constructor
        · intro hh it' hi c n e hc
          rcases List.mem_cons.1 hi with rfl | hi
          · exact absurd hc (hno c n e)
          · exact hh it' hi c n e hc
        · exact fun hh it' hi => hh it' (List.mem_cons_of_mem _ hi)
      | some q =>
        obtain ⟨c, n, e, last'⟩ := q
        simp only at hr ⊢
        obtain ⟨hc, -⟩ := (admit_some ..).1 ha
        have hs' : SInv P e.date s := by rw [← dayOf_considered hc]; exact h
        have hp := process_spec P o xyz it c n e s hs'
        cases her : (process P o xyz it c n e s).2 with
        | some er => rw [her] at hr; cases hr
        | none =>
          rw [her] at hr
          simp only at hr ⊢
          obtain ⟨e1, e2⟩ := item_errors P o xyz it c n e s hs' hcl her
          have hinv := hp.inv her
          rw [← dayOf_considered hc] at hinv
          by_cases h0 : errorsOf P o xyz it c n e s = 0
          · obtain ⟨h1, h2⟩ := ih last' _ hinv (e2 h0) hr
            rw [h0, Nat.zero_add]
            refine ⟨h1.trans ?_, h2⟩
            constructor
            · intro hh it' hi c' n' e' hc'
              rcases List.mem_cons.1 hi with rfl | hi
              · obtain ⟨rfl, rfl, rfl⟩ := considered_unique o it' c c' n n' e e' hc hc'
                exact e1.1 h0
              · exact hh it' hi c' n' e' hc'
            · exact fun hh it' hi => hh it' (List.mem_cons_of_mem _ hi)
          · refine ⟨⟨fun hh => absurd (by omega) h0, fun hh => ?_⟩, fun hh => absurd (by omega) h0⟩
            exact absurd (e1.2 (hh it (by simp) c n e hc)) h0

theorem errors_thin (P : Prm) (o : ObsIn) (dt : Int) (xyz : Dict DateTime Pos) (items : List ObsItem) : ∀ last last2 s,
    errorsItems P o (some dt) xyz items last s = errorsItems P o none xyz (leftOf (flagsOf o dt last items)) last2 s := by
  induction items with
  | nil => intro last last2 s; rfl
  | cons it its ih =>
    intro last last2 s
    simp only [flagsOf]
    cases ha : admit o (some dt) last it with
    | error er =>
      simp only [leftOf, List.filter_cons, if_true, List.map_cons, errorsItems, ha]
      rw [(admit_error ..).2 ((admit_error ..).1 ha)]
    | ok q =>
      cases q with
      | some q =>
        obtain ⟨c, n, e, last'⟩ := q
        obtain ⟨hc, -⟩ := (admit_some ..).1 ha
        simp only [leftOf, List.filter_cons, if_true, List.map_cons, errorsItems, ha, admit_free o last2 it c n e hc]
        cases (process P o xyz it c n e s).2 with
        | some er => rfl
        | none => exact congrArg _ (ih _ _ _)
      | none =>
        simp only
        obtain ⟨hd, hdec⟩ := (admit_none ..).1 ha
        cases hb : admit o none none it with
        | error er =>
          rw [(admit_error ..).1 hb] at hd
          obtain ⟨r, hr⟩ := hd; cases hr
        | ok q =>
          cases q with
          | some q =>
            simp only [leftOf, List.filter_cons, if_false, errorsItems, ha, Bool.false_eq_true]
            exact ih _ _ _
          | none =>
            have hb' : admit o none last2 it = .ok none :=
              (admit_none ..).2 ⟨hd, fun c n e hc => by
                have := ((admit_none ..).1 hb).2 c n e hc
                simp [decimate] at this⟩
            simp only [leftOf, List.filter_cons, if_true, List.map_cons, errorsItems, ha, hb']
            exact ih _ _ _

/-! ## the decimation rule determines the items kept -/

/-- equal up to the flags of items that are not considered -/
def Agree (o : ObsIn) (a b : List (ObsItem × Bool)) : Prop :=
  List.Forall₂ (fun x y => x.1 = y.1 ∧ ((∃ c n e, Considered o x.1 c n e) → x.2 = y.2)) a b

theorem Agree.symm {o : ObsIn} {a b : List (ObsItem × Bool)} (h : Agree o a b) : Agree o b a := by
  induction h with
  | nil => exact .nil
  | cons hx _ ih => exact .cons ⟨hx.1.symm, fun hc => (hx.2 (by rw [hx.1]; exact hc)).symm⟩ ih

theorem agree_lastKept {o : ObsIn} {a b : List (ObsItem × Bool)} (h : Agree o a b) (t : DateTime) (hk : LastKept o a t) : LastKept o b t := by
  obtain ⟨pre, it, post, rfl, ⟨c, n, hc⟩, hpost⟩ := hk
  obtain ⟨pre', r, -, h2, rfl⟩ := split _ _ _ h
  cases h2 with
  | cons hx hrest =>
    rename_i y post'
    obtain ⟨y1, y2⟩ := y
    obtain ⟨hx1, hx2⟩ := hx
    simp only at hx1 hx2
    subst hx1
    have hy := hx2 ⟨c, n, t, hc⟩
    subst hy
    refine ⟨pre', it, post', rfl, ⟨c, n, hc⟩, ?_⟩
    intro it' b' hm hcon
    have hs : Agree o post' post := Agree.symm hrest
    obtain ⟨x, hx, hx1, hx2⟩ := forall₂_mem hs hm
    obtain ⟨x1, x2⟩ := x
    simp only at hx1 hx2
    subst hx1
    rw [hx2 hcon]
    exact hpost _ _ hx hcon
where
  split (A B : List (ObsItem × Bool)) : ∀ l, Agree o (A ++ B) l → ∃ A' B', Agree o A A' ∧ Agree o B B' ∧ l = A' ++ B' := by
    induction A with
    | nil => intro l h; exact ⟨[], l, .nil, h, rfl⟩
    | cons x A ih =>
      intro l h
      cases h with
      | cons hx hr =>
        obtain ⟨A', B', h1, h2, rfl⟩ := ih _ hr
        exact ⟨_ :: A', B', .cons hx h1, h2, rfl⟩
  forall₂_mem {a b : List (ObsItem × Bool)} {x : ObsItem × Bool} (h : Agree o a b) (hx : x ∈ a) :
      ∃ y ∈ b, x.1 = y.1 ∧ ((∃ c n e, Considered o x.1 c n e) → x.2 = y.2) := by
    induction h with
    | nil => cases hx
    | cons hh _ ih =>
      rcases List.mem_cons.1 hx with rfl | hx
      · exact ⟨_, by simp, hh⟩
      · obtain ⟨y, hy, hh⟩ := ih hx
        exact ⟨y, by simp [hy], hh⟩

theorem decimated_agree {o : ObsIn} {dt : Int} {items : List ObsItem} {f g : List (ObsItem × Bool)} (hf : Decimated o dt items f) (hg : Decimated o dt items g) :
    Agree o f g := by
  have hlen : f.length = g.length := by
    have h1 := congrArg List.length hf.items
    have h2 := congrArg List.length hg.items
    simp only [List.length_map] at h1 h2
    omega
  have key : ∀ k, Agree o (f.take k) (g.take k) := by
    intro k
    induction k with
    | zero => simp only [List.take_zero]; exact .nil
    | succ k ih =>
      by_cases hk : k < f.length
      · have hk' : k < g.length := by omega
        rw [List.take_succ_eq_append_getElem hk, List.take_succ_eq_append_getElem hk']
        refine List.rel_append ih (.cons ⟨?_, ?_⟩ .nil)
        · have h1 : (f.map (·.1))[k]? = (g.map (·.1))[k]? := by rw [hf.items, hg.items]
          simpa [List.getElem?_map, List.getElem?_eq_getElem hk, List.getElem?_eq_getElem hk'] using h1
        · rintro ⟨c, n, e, hc⟩
          have hsplit : ∀ (l : List (ObsItem × Bool)) (hl : k < l.length), l = l.take k ++ (l[k].1, l[k].2) :: l.drop (k + 1) := by
            intro l hl
            rw [show ((l[k].1, l[k].2) : ObsItem × Bool) = l[k] from rfl, List.getElem_cons_drop, List.take_append_drop]
          have h1 : f[k].1 = g[k].1 := by
            have h1 : (f.map (·.1))[k]? = (g.map (·.1))[k]? := by rw [hf.items, hg.items]
            simpa [List.getElem?_map, List.getElem?_eq_getElem hk, List.getElem?_eq_getElem hk'] using h1
          have r1 := hf.rule _ _ _ _ c n e (hsplit f hk) hc
          have r2 := hg.rule _ _ _ _ c n e (hsplit g hk') (by rw [← h1]; exact hc)
          have heq : KeepRule o dt (f.take k) e ↔ KeepRule o dt (g.take k) e := by
            unfold KeepRule
            have hh : ∀ t, LastKept o (f.take k) t ↔ LastKept o (g.take k) t := fun t => ⟨agree_lastKept ih t, agree_lastKept ih.symm t⟩
            simp only [hh]
          exact Bool.eq_iff_iff.2 (r1.trans (heq.trans r2.symm))
      · rw [List.take_of_length_le (by omega), List.take_of_length_le (by omega)] at ih ⊢
        exact ih
  have := key f.length
  rwa [List.take_length, hlen, List.take_length] at this

theorem agree_left {o : ObsIn} {f g : List (ObsItem × Bool)} (h : Agree o f g) {it : ObsItem} (hi : it ∈ leftOf f) (hc : ∃ c n e, Considered o it c n e) :
    it ∈ leftOf g := by
  simp only [leftOf, List.mem_map, List.mem_filter] at hi ⊢
  obtain ⟨p, ⟨hp, hb⟩, rfl⟩ := hi
  obtain ⟨y, hy, h1, h2⟩ := agree_lastKept.forall₂_mem h hp
  exact ⟨y, ⟨hy, by rw [← h2 hc]; exact hb⟩, h1.symm⟩

end Verif.Proofs
