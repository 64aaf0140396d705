import Verif.Props.Start
import Verif.Props.ArchiveExamples
import Verif.Props.RunExamples
/-!
# C108: a run over an archive in bytes

The archive of C107 in bytes, with Windows line ends in the observation file, and the configuration file `./tecs.cfg` of C81.
-/
namespace Verif.Props
open Verif.Py Verif.Model Verif.Model.DoubleGeo Verif.Spec Verif.Proofs
namespace ArchEx

/-- the bytes of a line without its newline character -/
def lineBytes (l : Str) : Bytes := l.dropLast.map fun c => UInt8.ofNat c.toNat

/-- lines with the given line end -/
def tlines (eol : Eol) (ls : List Str) : List TLine := ls.map fun l => ⟨lineBytes l, eol⟩

/-- ASCII without line ends, and a newline character behind -/
def SimpleLine (l : Str) : Prop := l.getLast? = some '\n' ∧ l.dropLast.all fun c => decide (c.toNat < 128 ∧ c ≠ '\n' ∧ c ≠ '\r')

instance (l : Str) : Decidable (SimpleLine l) := by unfold SimpleLine; infer_instance

theorem chars_ascii (s : Str) (h : ∀ c ∈ s, c.toNat < 128) : Chars (s.map fun c => UInt8.ofNat c.toNat) s := by
  induction s with
  | nil => exact .nil
  | cons c s ih =>
    have hc := h c (by simp)
    have : (UInt8.ofNat c.toNat).toNat = c.toNat := by
      rw [UInt8.toNat_ofNat']; omega
    refine .ascii _ c _ s ?_ this.symm (ih fun c hc => h c (by simp [hc]))
    rw [UInt8.lt_iff_toNat_lt, this]
    exact hc

theorem simple_mem {l : Str} (h : SimpleLine l) : ∀ c ∈ l.dropLast, c.toNat < 128 ∧ c ≠ '\n' ∧ c ≠ '\r' := fun c hc => by
  simpa using List.all_eq_true.1 h.2 c hc

theorem tlines_read (eol : Eol) (ls : List Str) (h : ∀ l ∈ ls, SimpleLine l) : LinesRead (tlines eol ls) [] ls := by
  induction ls with
  | nil => exact .nothing [] .nil
  | cons l ls ih =>
    have hl := h l (by simp)
    have e : l.dropLast ++ ['\n'] = l := by
      obtain ⟨x, rfl⟩ := (List.getLast?_eq_some_iff).1 hl.1
      simp
    have := LinesRead.cons ⟨lineBytes l, eol⟩ l.dropLast (tlines eol ls) [] ls (chars_ascii _ fun c hc => (simple_mem hl c hc).1) (ih fun l hl => h l (by simp [hl]))
    rwa [e] at this

theorem lineBytes_no {l : Str} (h : SimpleLine l) : (10 : UInt8) ∉ lineBytes l ∧ (13 : UInt8) ∉ lineBytes l ∧ ∀ x ∈ lineBytes l, x < 128 := by
  have key : ∀ x ∈ lineBytes l, ∃ c ∈ l.dropLast, x.toNat = c.toNat ∧ c.toNat < 128 := by
    intro x hx
    obtain ⟨c, hc, rfl⟩ := List.mem_map.1 hx
    have := (simple_mem h c hc).1
    exact ⟨c, hc, by rw [UInt8.toNat_ofNat']; omega, this⟩
  refine ⟨fun hx => ?_, fun hx => ?_, fun x hx => ?_⟩
  · obtain ⟨c, hc, h1, -⟩ := key _ hx
    exact (simple_mem h c hc).2.1 (Char.toNat_inj.1 (by rw [← h1]; rfl))
  · obtain ⟨c, hc, h1, -⟩ := key _ hx
    exact (simple_mem h c hc).2.2 (Char.toNat_inj.1 (by rw [← h1]; rfl))
  · obtain ⟨c, hc, h1, h2⟩ := key _ hx
    rw [UInt8.lt_iff_toNat_lt, h1]; exact h2

theorem tlines_ok (eol : Eol) (he : eol ≠ .cr) (ls : List Str) (h : ∀ l ∈ ls, SimpleLine l) : LinesOk (tlines eol ls) [] := by
  induction ls with
  | nil => exact ⟨by simp, by simp⟩
  | cons l ls ih =>
    obtain ⟨h1, h2, -⟩ := lineBytes_no (h l (by simp))
    cases ls with
    | nil => exact ⟨h1, h2, by simp, by simp⟩
    | cons m ls => exact ⟨h1, h2, fun h => absurd h he, ih fun l hl => h l (by simp [hl])⟩

theorem eol_ascii (eol : Eol) : ∀ x ∈ eol.bytes, x < 128 := by cases eol <;> decide

theorem tlines_ascii (eol : Eol) (ls : List Str) (h : ∀ l ∈ ls, SimpleLine l) : ∀ x ∈ fileBytes (tlines eol ls) [], x < 128 := by
  intro x hx
  simp only [fileBytes, tlines, List.append_nil, List.mem_flatMap, List.mem_map] at hx
  obtain ⟨_, ⟨l, hl, rfl⟩, hx⟩ := hx
  rcases List.mem_append.1 hx with hx | hx
  · exact (lineBytes_no (h l hl)).2.2 x hx
  · exact eol_ascii eol x hx

def raw : RawDisk where
  listing := disk.listing
  present := disk.present
  bytes p := if p = obsPath then .ok (fileBytes (tlines .crlf obsLines) []) else if p = navPath then .ok (fileBytes (tlines .lf navLines) []) else .error .os
  gzip _ := .error .os
  crx2rnx _ := .error .os
  crxPipe _ := .error .os
  locale b := if b.all (· < 128) then .ok (decodeAscii b) else .error .value

theorem simple_obs : ∀ l ∈ obsLines, SimpleLine l := by decide +kernel
theorem simple_nav : ∀ l ∈ navLines, SimpleLine l := by decide +kernel

theorem ascii_locale : AsciiLocale raw := by
  intro b s hb hs
  show (if _ then _ else _) = _
  rw [if_pos (by simpa using hb)]
  congr 1
  induction hs with
  | nil => rfl
  | ascii b c bs s h1 h2 _ ih =>
    rw [decodeAscii, List.filter_cons_of_pos (by simpa using h1), List.map_cons, ← h2]
    exact congrArg₂ _ (Char.ofNat_toNat c) (ih fun x hx => hb x (by simp [hx]))
  | other b bs s h1 _ _ => exact absurd (hb b (by simp)) (by simpa using h1)

theorem text_obs : textLines (decodeAscii (fileBytes (tlines .crlf obsLines) [])) = obsLines := by decide +kernel
theorem text_nav : textLines (decodeAscii (fileBytes (tlines .lf navLines) [])) = navLines := by decide +kernel

theorem disk_raw : diskOf raw = disk := by
  have hb : ∀ eol ls, (∀ l ∈ ls, SimpleLine l) → raw.locale (fileBytes (tlines eol ls) []) = .ok (decodeAscii (fileBytes (tlines eol ls) [])) := by
    intro eol ls h
    show (if _ then _ else _) = _
    rw [if_pos (by simpa using tlines_ascii eol ls h)]
  unfold diskOf disk
  congr 1
  funext f p
  cases f with
  | plain =>
    show Except.map _ (raw.bytes p) = _
    by_cases h1 : p = obsPath
    · simp [raw, h1, Except.map, text_obs]
    · by_cases h2 : p = navPath
      · simp [raw, h2, Except.map, text_nav, show navPath ≠ obsPath by decide]
      · simp [raw, h1, h2, Except.map]
  | text =>
    show (match raw.bytes p with | .error e => Except.error e | .ok b => (raw.locale b).map textLines) = _
    by_cases h1 : p = obsPath
    · have : raw.bytes p = .ok (fileBytes (tlines .crlf obsLines) []) := by simp [raw, h1]
      rw [this]
      simp only [hb _ _ simple_obs, Except.map, text_obs, h1, if_true]
    · by_cases h2 : p = navPath
      · have : raw.bytes p = .ok (fileBytes (tlines .lf navLines) []) := by simp [raw, h2, show navPath ≠ obsPath by decide]
        rw [this]
        simp only [hb _ _ simple_nav, Except.map, text_nav, h1, h2, if_true, if_false]
        rw [if_neg (by decide)]
      · have : raw.bytes p = .error .os := by simp [raw, h1, h2]
        rw [this]
        simp only [h1, h2, if_false]
  | _ => rfl

def world : World := ⟨fun p => if p = c% "./tecs.cfg" then some ProgEx.cfgLines else none, fun d => if d = c% "." then .ok (diskOf raw) else .error .os⟩

theorem launched : Launched ProgEx.ev ProgEx.dtLen world ⟨false, none, false⟩ cfg raw := by
  obtain ⟨items, -, h1, h2, -⟩ := ProgEx.C81_hypotheses
  exact ⟨rfl, rfl, c% ".", c% "tecs.cfg", items, ProgEx.cfgLines, .inr ⟨rfl, rfl, rfl⟩, by decide, by decide, by decide, by decide, h1, h2, configured, rfl⟩

theorem byteArchive : ByteArchive raw cfg [obsPath] := by
  refine ⟨ascii_locale, ?_, navArchive.dirs, ?_, ?_⟩
  · intro p hp
    rw [List.mem_singleton] at hp
    subst hp
    refine ⟨⟨obsLines, ⟨false, false, tlines .crlf obsLines, [], ⟨by decide, c% "d", c% "irkj0020.17o", .inr ⟨rfl, ProgEx.no_slash_mark⟩, ProgEx.obsName⟩, ?_,
      tlines_ok _ (by decide) _ simple_obs, tlines_read _ _ simple_obs⟩, obsText⟩, [], by simp, ?_⟩
    · show raw.bytes obsPath = _
      simp [raw]
    · exact ⟨obsPath, c% "irkj0020.17o", [], false, false, rfl, .inr ⟨c% "d", by decide, rfl⟩,
        .daily (c% "irkj") (c% "002") '0' (c% "17") 'o' false ⟨rfl, by decide⟩ ⟨rfl, by decide⟩ rfl ⟨rfl, by decide⟩ rfl, ProgEx.obsName, .inl ⟨by decide, rfl⟩⟩
  · rw [disk_raw]; exact navArchive.listed
  · intro path hp c e f h1 h2 h3
    rw [disk_raw] at h3
    rw [List.mem_singleton] at hp
    subst hp
    have hd := day _ h1
    obtain rfl := navArchive_choice c e f h3
    have hp : ¬ Packed navPath := by
      intro hp
      have := (packed_iff navPath (by decide)).2 hp
      revert this
      decide +kernel
    refine ⟨by rw [hd]; exact navDay, navLines, 302, 302, [navR], ⟨by decide, fun h => absurd h hp, fun _ => ⟨tlines .lf navLines, [], ?_, tlines_ascii _ _ simple_nav,
      tlines_ok _ (by decide) _ simple_nav, tlines_read _ _ simple_nav⟩⟩, navText.1⟩
    simp [raw, show navPath ≠ obsPath by decide]

end ArchEx

/-- C108: the hypotheses hold together: a directory with the configuration file of C81, an observation file with Windows line ends and a navigation file, and numerical functions that compute as
the code does in binary64 -/
theorem C108_hypotheses : ∃ X : Ext, Accurate Flt.binary64 ∧ Launched ProgEx.ev ProgEx.dtLen ArchEx.world ⟨false, none, false⟩ ArchEx.cfg ArchEx.raw ∧
    X.dtLen = ProgEx.dtLen ArchEx.cfg.datetimeFormat ∧ Computed Flt.binary64 (prmOf X (diskOf ArchEx.raw) ArchEx.cfg) ∧
    (∀ t, DateIsWord (prmOf X (diskOf ArchEx.raw) ArchEx.cfg) t) ∧ ArchEx.cfg.outFileModeText = true ∧ OutDirOk ArchEx.cfg ∧ PlainNames (diskOf ArchEx.raw) ArchEx.cfg.obsDir ∧
    InputFiles (diskOf ArchEx.raw) ArchEx.cfg.obsDir [ArchEx.obsPath] ∧ FourDigits [ArchEx.obsPath] ∧ ByteArchive ArchEx.raw ArchEx.cfg [ArchEx.obsPath] ∧
    Numerics X (diskOf ArchEx.raw) ArchEx.cfg [ArchEx.obsPath] := by
  obtain ⟨X, h0, h1, -, h2, -, h3, h4, -, h5, h6, h7, h8, -, -, -, -, -, h9, -⟩ := C107_hypotheses
  rw [ArchEx.disk_raw]
  exact ⟨X, h1, ArchEx.launched, h0.trans rfl, h2, h3, h4, h5, h6, h7, h8, ArchEx.byteArchive, h9⟩

end Verif.Props
