import Verif.Model.OpenFile
import Verif.Props.Subclasses
import Verif.Props.Detect
import Verif.Props.Runlist

/-! # C149: opening a waveform file by its path -/

namespace Verif.Props

open Verif.Py Verif.Model

/-- what a reader sees of a file: its bytes, or those it was compressed from if it starts with the mark of gzip -/
def HasContent (gunzip : Nat → List UInt8 → Except Err (List UInt8)) (file content : List UInt8) : Prop :=
  if [0x1f, 0x8b] <+: file then ∀ k, gunzip k file = .ok (content.take k) else content = file

/-- an R0 or R1 file: "FITS" in the first 1024 bytes, and the keyword of TargetIO in the header -/
def IsTio (header : List UInt8 → Option (List String)) (file content : List UInt8) : Prop :=
  [0x46, 0x49, 0x54, 0x53] <:+: content.take 1024 ∧ ∃ h, header file = some h ∧ "EVENT_HEADER_VERSION" ∈ h

/-- a simulation: the marker in one of the byte orders -/
def IsSimtel (content : List UInt8) : Prop := simtelMarkerBE <+: content ∨ simtelMarkerLE <+: content

/-- C149: for every hierarchy, the outcome of the search is that of the first class that recognises the file or raises; without one of them it is `None`. -/
theorem C149_search (h : Hierarchy) (base : Nat) (compatible : Nat → Except Err Bool) :
    (∀ g, fromPathRaising h base compatible = .ok (some g) ↔
      compatible g = .ok true ∧ ∃ l1 l2, childSubclasses h base = l1 ++ g :: l2 ∧ ∀ c ∈ l1, compatible c = .ok false) ∧
    (∀ e, fromPathRaising h base compatible = .error e ↔
      ∃ l1 c l2, childSubclasses h base = l1 ++ c :: l2 ∧ (∀ c ∈ l1, compatible c = .ok false) ∧ compatible c = .error e) ∧
    (fromPathRaising h base compatible = .ok none ↔ ∀ c ∈ childSubclasses h base, compatible c = .ok false) := by
  unfold fromPathRaising
  generalize childSubclasses h base = l
  induction l with
  | nil => simp [fromPathLoop]
  | cons a l ih =>
    obtain ⟨ih1, ih2, ih3⟩ := ih
    cases ha : compatible a with
    | error e' =>
      refine ⟨fun g => ?_, fun e => ?_, ?_⟩
      · simp only [fromPathLoop, ha, reduceCtorEq, false_iff]
        rintro ⟨hg, l1, l2, hl, hno⟩
        cases l1 with
        | nil => simp only [List.nil_append, List.cons.injEq] at hl; rw [hl.1, hg] at ha; cases ha
        | cons b l1 => simp only [List.cons_append, List.cons.injEq] at hl; have := hno a (by simp [hl.1]); rw [ha] at this; cases this
      · simp only [fromPathLoop, ha, Except.error.injEq]
        constructor
        · rintro rfl; exact ⟨[], a, l, rfl, by simp, ha⟩
        · rintro ⟨l1, c, l2, hl, hno, hc⟩
          cases l1 with
          | nil => simp only [List.nil_append, List.cons.injEq] at hl; rw [hl.1, hc] at ha; cases ha; rfl
          | cons b l1 => simp only [List.cons_append, List.cons.injEq] at hl; have := hno a (by simp [hl.1]); rw [ha] at this; cases this
      · simp [fromPathLoop, ha]
    | ok b => cases b with
      | true =>
        refine ⟨fun g => ?_, fun e => ?_, ?_⟩
        · simp only [fromPathLoop, ha, Except.ok.injEq, Option.some.injEq]
          constructor
          · rintro rfl; exact ⟨ha, [], l, rfl, by simp⟩
          · rintro ⟨hg, l1, l2, hl, hno⟩
            cases l1 with
            | nil => simp only [List.nil_append, List.cons.injEq] at hl; exact hl.1
            | cons b l1 => simp only [List.cons_append, List.cons.injEq] at hl; have := hno a (by simp [hl.1]); rw [ha] at this; cases this
        · simp only [fromPathLoop, ha, reduceCtorEq, false_iff]
          rintro ⟨l1, c, l2, hl, hno, hc⟩
          cases l1 with
          | nil => simp only [List.nil_append, List.cons.injEq] at hl; rw [hl.1, hc] at ha; cases ha
          | cons b l1 => simp only [List.cons_append, List.cons.injEq] at hl; have := hno a (by simp [hl.1]); rw [ha] at this; cases this
        · simp [fromPathLoop, ha]
      | false =>
        refine ⟨fun g => ?_, fun e => ?_, ?_⟩
        · simp only [fromPathLoop, ha]
          rw [ih1 g]
          constructor
          · rintro ⟨hg, l1, l2, hl, hno⟩
            exact ⟨hg, a :: l1, l2, by simp [hl], by simpa [ha] using hno⟩
          · rintro ⟨hg, l1, l2, hl, hno⟩
            cases l1 with
            | nil => simp only [List.nil_append, List.cons.injEq] at hl; rw [hl.1, hg] at ha; cases ha
            | cons b l1 => simp only [List.cons_append, List.cons.injEq] at hl; exact ⟨hg, l1, l2, hl.2, fun c hc => hno c (by simp [hc])⟩
        · simp only [fromPathLoop, ha]
          rw [ih2 e]
          constructor
          · rintro ⟨l1, c, l2, hl, hno, hc⟩
            exact ⟨a :: l1, c, l2, by simp [hl], by simpa [ha] using hno, hc⟩
          · rintro ⟨l1, c, l2, hl, hno, hc⟩
            cases l1 with
            | nil => simp only [List.nil_append, List.cons.injEq] at hl; rw [hl.1, hc] at ha; cases ha
            | cons b l1 => simp only [List.cons_append, List.cons.injEq] at hl; exact ⟨l1, c, l2, hl.2, fun c hc => hno c (by simp [hc]), hc⟩
        · simp only [fromPathLoop, ha, List.mem_cons, forall_eq_or_imp, true_and, ih3]

/-- the search is the one of C04 for tests that never raise -/
theorem C149_no_exceptions (h : Hierarchy) (base : Nat) (compatible : Nat → Bool) :
    fromPathRaising h base (fun c => .ok (compatible c)) = .ok (fromPath h base compatible) := by
  unfold fromPathRaising fromPath
  generalize childSubclasses h base = l
  induction l with
  | nil => rfl
  | cons a l ih =>
    rw [fromPathLoop, List.find?_cons]
    cases compatible a with
    | true => rfl
    | false => exact ih

theorem openByPath_some (gunzip : Nat → List UInt8 → Except Err (List UInt8)) (header : List UInt8 → Option (List String)) (file : List UInt8) :
    openByPath gunzip header (some file) = match tioCompatible gunzip header file with
      | .error e => .error e
      | .ok true => .ok (some "TIOReader")
      | .ok false => match simtelCompatible gunzip file with
        | .error e => .error e
        | .ok true => .ok (some "SimtelReader")
        | .ok false => .ok none := by
  unfold openByPath fromPathRaising
  rw [reader_children]
  cases h1 : tioCompatible gunzip header file with
  | error e => simp [fromPathLoop, readerCompatible, h1]
  | ok b => cases b with
    | true => simp [fromPathLoop, readerCompatible, h1, readerHierarchy]
    | false =>
      cases h2 : simtelCompatible gunzip file with
      | error e => simp [fromPathLoop, readerCompatible, h1, h2]
      | ok b => cases b <;> simp [fromPathLoop, readerCompatible, h1, h2, readerHierarchy]

theorem isSimtel_iff (content : List UInt8) (hlen : 4 ≤ content.length) :
    (content.take 4 = simtelMarkerBE ∨ content.take 4 = simtelMarkerLE) ↔ IsSimtel content := by
  unfold IsSimtel
  rw [List.prefix_iff_eq_take, List.prefix_iff_eq_take]
  simp [simtelMarkerBE, simtelMarkerLE, eq_comm]

/-- fewer than four bytes do not contain "FITS" -/
theorem short_not_fits (content : List UInt8) (hlen : content.length < 4) : ¬ [0x46, 0x49, 0x54, 0x53] <:+: content.take 1024 := by
  intro h
  have := h.length_le
  simp at this
  omega

/-- C149, what holds: a file whose content has at least four bytes is opened as R0 or R1 file if it is one, otherwise as simulation if it is one, and is
otherwise answered with `None`; a shorter one raises, `IndexError` if the file is empty or the single byte 1f, `struct.error` otherwise. (The full claim would be
that the answer is `None` for the short ones, too.) -/
theorem C149_partial (gunzip : Nat → List UInt8 → Except Err (List UInt8)) (header : List UInt8 → Option (List String)) (file content : List UInt8)
    (hc : HasContent gunzip file content) :
    (4 ≤ content.length → IsTio header file content → openByPath gunzip header (some file) = .ok (some "TIOReader")) ∧
    (4 ≤ content.length → ¬ IsTio header file content → IsSimtel content → openByPath gunzip header (some file) = .ok (some "SimtelReader")) ∧
    (4 ≤ content.length → ¬ IsTio header file content → ¬ IsSimtel content → openByPath gunzip header (some file) = .ok none) ∧
    (content.length < 4 →
      openByPath gunzip header (some file) = .error (if file = [] ∨ file = [0x1f] then .indexError else .structError)) := by
  rw [openByPath_some]
  by_cases hg : [0x1f, 0x8b] <+: file
  · have hf2 : 2 ≤ file.length := by have := hg.length_le; simpa using this
    have hcont : ∀ k, gunzip k file = .ok (content.take k) := by simpa [HasContent, hg] using hc
    obtain ⟨b, hb, hiff⟩ := C05_tio gunzip header file content hf2 (by simp [hg, hcont])
    rw [hb]
    have hiff' : b = true ↔ IsTio header file content := hiff
    refine ⟨fun _ ht => by rw [hiff'.mpr ht], fun hl ht hs => ?_, fun hl ht hs => ?_, fun hl => ?_⟩
    · cases b with
      | true => exact absurd (hiff'.mp rfl) ht
      | false =>
        simp only
        rw [C05_simtel_gzip gunzip file content hg (hcont 4) hl, decide_eq_true ((isSimtel_iff content hl).mpr hs)]
    · cases b with
      | true => exact absurd (hiff'.mp rfl) ht
      | false =>
        simp only
        rw [C05_simtel_gzip gunzip file content hg (hcont 4) hl, decide_eq_false (mt (isSimtel_iff content hl).mp hs)]
    · cases b with
      | true => exact absurd (hiff'.mp rfl).1 (short_not_fits content hl)
      | false =>
        obtain ⟨t, rfl⟩ := hg
        have hz : isGzip (([0x1f, 0x8b] ++ t).take 4) = .ok true := by simp [isGzip]
        have : simtelCompatible gunzip ([0x1f, 0x8b] ++ t) = .error .structError := by
          simp only [simtelCompatible, readMarker, hz, hcont 4, bind, Except.bind]
          match content, hl with
          | [], _ => rfl
          | [_], _ => rfl
          | [_, _], _ => rfl
          | [_, _, _], _ => rfl
        rw [this]
        simp
  · have hcont : content = file := by simpa [HasContent, hg] using hc
    subst hcont
    by_cases hl : 4 ≤ content.length
    · obtain ⟨b, hb, hiff⟩ := C05_tio gunzip header content content (by omega) (by simp [hg])
      rw [hb]
      have hiff' : b = true ↔ IsTio header content content := hiff
      refine ⟨fun _ ht => by rw [hiff'.mpr ht], fun hl ht hs => ?_, fun hl ht hs => ?_, fun hl' => by omega⟩
      · cases b with
        | true => exact absurd (hiff'.mp rfl) ht
        | false =>
          simp only
          rw [C05_simtel_plain gunzip content hl hg, decide_eq_true ((isSimtel_iff content hl).mpr hs)]
      · cases b with
        | true => exact absurd (hiff'.mp rfl) ht
        | false =>
          simp only
          rw [C05_simtel_plain gunzip content hl hg, decide_eq_false (mt (isSimtel_iff content hl).mp hs)]
    · refine ⟨fun h => absurd h hl, fun h => absurd h hl, fun h => absurd h hl, fun hl' => ?_⟩
      rw [C05_simtel_short gunzip content hl' hg]
      by_cases h2 : 2 ≤ content.length
      · obtain ⟨b, hb, hiff⟩ := C05_tio gunzip header content content h2 (by simp [hg])
        rw [hb]
        cases b with
        | true => exact absurd (hiff.mp rfl).1 (short_not_fits content hl')
        | false => rfl
      · match content, h2 with
        | [], _ => rfl
        | [a], _ =>
          by_cases ha : a = 0x1f
          · subst ha; rfl
          · simp [tioCompatible, readMarker, isGzip, ha, bind, Except.bind, containsFITS, List.isPrefixOf, pure, Except.pure]
        | a :: b :: t, h => simp at h

example : openByPath (fun k _ => .ok ([0xD4, 0x1F, 0x8A, 0x37, 9].take k)) (fun _ => none) (some [0x1f, 0x8b, 8, 8]) = .ok (some "SimtelReader") :=
  (C149_partial (fun k _ => .ok ([0xD4, 0x1F, 0x8A, 0x37, 9].take k)) (fun _ => none) [0x1f, 0x8b, 8, 8] [0xD4, 0x1F, 0x8A, 0x37, 9]
    (by unfold HasContent; rw [if_pos (by decide)]; exact fun k => rfl)).2.1 (by decide) (by simp [IsTio]) (Or.inl (by decide))

/-- C149 is false: an empty file, or one with the two bytes "1\\n", is not answered with `None`. -/
theorem C149_false (gunzip : Nat → List UInt8 → Except Err (List UInt8)) (header : List UInt8 → Option (List String)) :
    openByPath gunzip header (some []) = .error .indexError ∧ openByPath gunzip header (some [0x31, 0x0a]) = .error .structError := by
  constructor
  · exact (C149_partial gunzip header [] [] (by unfold HasContent; rw [if_neg (by decide)])).2.2.2 (by decide)
  · exact (C149_partial gunzip header [0x31, 0x0a] [0x31, 0x0a] (by unfold HasContent; rw [if_neg (by decide)])).2.2.2 (by decide)

/-- C149: a path without a file raises `FileNotFoundError`, a file compressed badly the exception of the decompression. -/
theorem C149_unreadable (gunzip : Nat → List UInt8 → Except Err (List UInt8)) (header : List UInt8 → Option (List String)) :
    openByPath gunzip header none = .error .fileNotFound ∧
    ∀ file e, [0x1f, 0x8b] <+: file → gunzip 1024 file = .error e → openByPath gunzip header (some file) = .error e := by
  constructor
  · unfold openByPath fromPathRaising
    rw [reader_children]
    rfl
  · rintro _ e ⟨t, rfl⟩ he
    rw [openByPath_some]
    have hz : isGzip (([0x1f, 0x8b] ++ t).take 1024) = .ok true := by simp [isGzip]
    simp only [tioCompatible, readMarker, hz, he, bind, Except.bind]

example : openByPath (fun _ _ => .error .ioError) (fun _ => none) (some [0x1f, 0x8b, 0]) = .error .ioError :=
  (C149_unreadable (fun _ _ => .error .ioError) (fun _ => none)).2 _ _ (by decide) rfl

/-- C149: `extract_dl1` ends with `AttributeError` at the first file it does not recognise; the outputs of the files before it stay, the files after it are not
touched. -/
theorem C149_extract (gunzip : Nat → List UInt8 → Except Err (List UInt8)) (header : List UInt8 → Option (List String))
    (process : String → List UInt8 → Except Err (List UInt8 × Option Err)) (isMc : List UInt8 → Bool) (given : Option String)
    (fs fs1 : Dict String (List UInt8)) (ps : List String) (p : String) (rest : List String)
    (h : extractFiles isMc (openAndExtract gunzip header process) given fs ps = (fs1, none)) (file content : List UInt8) (hf : Dict.get? fs1 p = some file)
    (hc : HasContent gunzip file content) (hl : 4 ≤ content.length) (ht : ¬ IsTio header file content) (hs : ¬ IsSimtel content) :
    extractFiles isMc (openAndExtract gunzip header process) given fs (ps ++ p :: rest) = (fs1, some .attributeError) := by
  refine (C105_stops isMc _ given fs fs1 ps p rest h).2.1 file _ hf ?_
  unfold openAndExtract
  rw [(C149_partial gunzip header file content hc).2.2.1 hl ht hs]

example : extractFiles (fun _ => false) (openAndExtract (fun _ => .ok) (fun _ => none) (fun _ f => .ok (f, none))) none
    [("/d/notes.txt", [0x74, 0x65, 0x78, 0x74])] ["/d/notes.txt", "/d/a_r1.tio"] = ([("/d/notes.txt", [0x74, 0x65, 0x78, 0x74])], some .attributeError) :=
  C149_extract (fun _ => .ok) (fun _ => none) (fun _ f => .ok (f, none)) (fun _ => false) none [("/d/notes.txt", [0x74, 0x65, 0x78, 0x74])]
    [("/d/notes.txt", [0x74, 0x65, 0x78, 0x74])] [] "/d/notes.txt" ["/d/a_r1.tio"] rfl [0x74, 0x65, 0x78, 0x74] [0x74, 0x65, 0x78, 0x74] rfl
    (by unfold HasContent; rw [if_neg (by decide)]) (by decide) (by simp [IsTio]) (by unfold IsSimtel; decide)

end Verif.Props
