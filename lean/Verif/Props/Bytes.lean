import Verif.Proofs.Bytes
import Verif.Props.Output
import Verif.Props.ProgramNav
/-!
# C78: bytes, compression, line ends
-/
namespace Verif.Props
open Verif.Py Verif.Model Verif.Spec Verif.Proofs

/-- the lines of an observation file depend on the bytes behind its form only -/
theorem form_lines {R : RawDisk} {hat comp : Bool} {path : Str} {b : Bytes} (h : FormOf R hat comp path b) :
    (diskOf R).lines (fetchOf hat comp) path = .ok (textLines (decodeAscii b)) := by
  cases hat <;> cases comp <;> simp only [FormOf] at h
  · simp [diskOf, fetchOf, h, Except.map]
  · simp [diskOf, fetchOf, h, started, Except.map, tmpLines_eq]
  · simp [diskOf, fetchOf, h, started, Except.map, tmpLines_eq]
  · obtain ⟨z, h1, h2⟩ := h
    simp [diskOf, fetchOf, h1, h2, started, Except.map, tmpLines_eq]

theorem form_read {R : RawDisk} {hat comp : Bool} {path : Str} {b : Bytes} (hp : ObsPath path hat comp) (h : FormOf R hat comp path b) :
    ReadAs (diskOf R) path (textLines (decodeAscii b)) := by
  obtain ⟨h1, dir, name, h2, h3⟩ := hp
  exact ⟨h1, dir, name, hat, comp, h2, h3, form_lines h⟩

/-- C78: the lines of an observation file.  Whatever the form of the file (plain, compressed, Hatanaka, both) and whatever its line ends, the lines read are those of
the text in the file; bytes that are not ASCII are left out. -/
theorem C78_lines (R : RawDisk) (path : Str) (hat comp : Bool) (ls : List TLine) (last : Bytes) (r : List Str) (hp : ObsPath path hat comp)
    (h : FormOf R hat comp path (fileBytes ls last)) (hok : LinesOk ls last) (hr : LinesRead ls last r) : ReadAs (diskOf R) path r := by
  have := form_read hp h
  rw [show textLines (decodeAscii (fileBytes ls last)) = r from lines_read ls last r hr hok false (by simp)] at this
  exact this

theorem obsIn_rename {p q : Str} (hd : getRinexDate p = getRinexDate q) (h : HeaderVals) (items : List ObsItem) (stop : Except PyErr Unit) :
    obsIn q h items stop = (obsIn p h items stop).map fun r => r.map fun o => { o with filename := q } := by
  unfold obsIn
  cases h.verType with
  | none => rfl
  | some x =>
    obtain ⟨_, _, sys⟩ := x
    simp only [hd]
    cases posOf h.xyz <;> cases h.interval.bind ratOf <;> rfl

/-- C78: two observation files (of one disk or of two) in possibly different forms, with the same bytes behind them and names that announce the same day, are the
same for the rest of the program, except for their name. -/
theorem C78_forms (R R' : RawDisk) (fuel : Nat) (p q : Str) (hat comp hat' comp' : Bool) (b : Bytes) (hp : ObsPath p hat comp) (hq : ObsPath q hat' comp')
    (h : FormOf R hat comp p b) (h' : FormOf R' hat' comp' q b) (hday : ∀ d, NamedDay p d ↔ NamedDay q d) :
    obsFile (diskOf R') fuel q = (obsFile (diskOf R) fuel p).map fun r => r.map fun o => { o with filename := q } := by
  have hr := form_read hp h
  have hr' := form_read hq h'
  have h1 := fetchObs_read hr
  have h2 := fetchObs_read hr'
  have hd : getRinexDate p = getRinexDate q := by
    apply Option.ext
    intro d
    rw [namedDay_iff p d (readAs_last hr), namedDay_iff q d (readAs_last hr')]
    exact hday d
  unfold obsFile
  rw [h1, h2]
  simp only
  cases obsVersion (Model.firstLine (textLines (decodeAscii b))) with
  | error e => rfl
  | ok v =>
    simp only
    split
    · cases openObs2 v (textLines (decodeAscii b)) with
      | error e => rfl
      | ok o =>
        simp only [obsIn2]
        cases allOf (itemOf2 o.cfg.types) o.records.yields with
        | none => rfl
        | some items => exact obsIn_rename hd ..
    · cases openObs3 v fuel (textLines (decodeAscii b)) with
      | none => rfl
      | some r =>
        cases r with
        | error e => rfl
        | ok o =>
          simp only [obsIn3]
          cases allOf itemOf3 o.records.yields with
          | none => rfl
          | some items => exact obsIn_rename hd ..

/-- C78: if `gzip` or `crx2rnx` cannot be started the observation file is left out (C62) -/
theorem C78_tools (R : RawDisk) (fuel : Nat) (path : Str) (hat comp : Bool) (hp : ObsPath path hat comp)
    (h : (comp = true ∧ ∃ e, R.gzip path = .error e) ∨ (hat = true ∧ comp = false ∧ ∃ e, R.crx2rnx path = .error e) ∨
      (hat = true ∧ comp = true ∧ ∃ b e, R.gzip path = .ok b ∧ R.crxPipe b = .error e)) :
    obsFile (diskOf R) fuel path = some (.error .uncompress) := by
  obtain ⟨h1, dir, name, h2, h3⟩ := hp
  have hl : (diskOf R).lines (fetchOf hat comp) path = .error .uncompress := by
    rcases h with ⟨rfl, e, he⟩ | ⟨rfl, rfl, e, he⟩ | ⟨rfl, rfl, b, e, hb, he⟩
    · cases hat <;> simp [diskOf, fetchOf, he, started, Except.map]
    · simp [diskOf, fetchOf, he, started, Except.map]
    · simp [diskOf, fetchOf, he, hb, started, Except.map]
  have he := C38_treatment path dir name hat comp (h2.imp id And.left) h1 h3 (h2.imp id And.right)
  have : fetchObs (diskOf R) path = .error .uncompress := by
    unfold fetchObs
    rw [he]
    cases hat <;> cases comp <;> exact hl
  unfold obsFile
  rw [this]

/-- C78: navigation files.  A packed file, and a file that is not packed and consists of ASCII bytes (in a locale that contains ASCII), have the lines of the text. -/
theorem C78_navigation (R : RawDisk) (path : Str) (ls : List TLine) (last : Bytes) (r : List Str) (hn : '\n' ∉ path) (hloc : AsciiLocale R)
    (hpacked : Packed path → R.gzip path = .ok (fileBytes ls last))
    (hplain : ¬ Packed path → R.bytes path = .ok (fileBytes ls last) ∧ ∀ x ∈ fileBytes ls last, x < 128)
    (hok : LinesOk ls last) (hr : LinesRead ls last r) : NavReadAs (diskOf R) path r := by
  have hl : textLines (decodeAscii (fileBytes ls last)) = r := lines_read ls last r hr hok false (by simp)
  refine ⟨hn, fun hp => ?_, fun hp => ?_⟩
  · simp [diskOf, hpacked hp, started, Except.map, tmpLines_eq, hl]
  · obtain ⟨h1, h2⟩ := hplain hp
    have := hloc _ _ h2 ((chars_iff _ _).2 rfl)
    simp [diskOf, h1, this, Except.map, hl]

/-- C78: coordinate files of ASCII bytes -/
theorem C78_coordinates (R : RawDisk) (path : Str) (ls : List TLine) (last : Bytes) (r : List Str) (hloc : AsciiLocale R)
    (hb : R.bytes path = .ok (fileBytes ls last)) (ha : ∀ x ∈ fileBytes ls last, x < 128) (hok : LinesOk ls last) (hr : LinesRead ls last r) :
    (diskOf R).lines .text path = .ok r := by
  have hl : textLines (decodeAscii (fileBytes ls last)) = r := lines_read ls last r hr hok false (by simp)
  have := hloc _ _ ha ((chars_iff _ _).2 rfl)
  simp [diskOf, hb, this, Except.map, hl]

/-- C78: a byte that is not ASCII in a navigation file: with an encoding that rejects it (e.g. a lone byte 233 in UTF-8) loading ends with the error of the
decoder if the file is not packed, while the packed file is read. -/
theorem C78_navigation_encoding (R : RawDisk) (path : Str) (b : Bytes) (e : PyErr) (hn : '\n' ∉ path) :
    (¬ Packed path → R.bytes path = .ok b → R.locale b = .error e → navFileOf (diskOf R) path = .error e) ∧
    (Packed path → R.gzip path = .ok b → fetchNav (diskOf R) path = .ok (textLines (decodeAscii b))) := by
  refine ⟨fun hp hb he => ?_, fun hp hb => ?_⟩
  · unfold navFileOf fetchNav
    rw [if_neg fun hz => hp ((packed_iff path hn).1 hz)]
    simp [diskOf, hb, he, Except.map]
  · unfold fetchNav
    rw [if_pos ((packed_iff path hn).2 hp)]
    simp [diskOf, hb, started, Except.map, tmpLines_eq]

/-- C78: Windows line ends, an old Macintosh line end, a byte that is not ASCII, an unfinished line -/
theorem C78_example :
    LinesOk [⟨[65, 233, 66], .crlf⟩, ⟨[], .cr⟩, ⟨[67], .lf⟩] [68] ∧
    LinesRead [⟨[65, 233, 66], .crlf⟩, ⟨[], .cr⟩, ⟨[67], .lf⟩] [68] [c% "AB\n", c% "\n", c% "C\n", c% "D"] ∧
    textLines (decodeAscii [65, 233, 66, 13, 10, 13, 67, 10, 68]) = [c% "AB\n", c% "\n", c% "C\n", c% "D"] ∧
    ObsPath (c% "d/irkj0020.17d.Z") true true := by
  have hc : ∀ (b : Bytes) (s : Str), decodeAscii b = s → Chars b s := fun b s h => (chars_iff b s).2 h.symm
  refine ⟨⟨by decide, by decide, by simp, by decide, by decide, fun _ _ h => ?_, by decide, by decide, by decide, by decide⟩, ?_, by decide, by decide, c% "d", c% "irkj0020.17d.Z", .inr ⟨rfl, ?_⟩, ?_⟩
  · have := (chars_iff _ _).1 h
    revert this
    decide
  · exact .cons _ (c% "AB") _ _ _ (hc _ _ (by decide)) (.cons _ [] _ _ _ (hc _ _ (by decide)) (.cons _ (c% "C") _ _ _ (hc _ _ (by decide)) (.last _ _ (hc _ _ (by decide)) (by decide))))
  · rintro k ⟨x, m, r, h, hm⟩
    have h1 : m.length ≤ 1 := by
      have := congrArg List.length h
      simp only [List.length_append, List.length_cons, List.length_nil] at this
      omega
    rcases hm with ⟨yy, t, rfl, h2, -⟩ | h2
    · simp [h2.1] at h1
    · have := congrArg List.length h2
      simp only [lower, List.length_map] at this
      rw [this] at h1
      cases k <;> simp at h1
  · exact ⟨c% "irkj0020.17d", c% ".Z", rfl, .daily (c% "irkj") (c% "002") '0' (c% "17") 'd' true ⟨rfl, by decide⟩ ⟨rfl, by decide⟩ rfl ⟨rfl, by decide⟩ rfl, .inl rfl⟩

end Verif.Props
