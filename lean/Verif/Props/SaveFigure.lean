import Verif.Model.SaveFigure
import Verif.Props.ToRoot

/-! # C126: saving figures -/

namespace Verif.Props

open Verif.Py Verif.Model

variable {F : Type}

theorem isDir_iff (d : Disk F) (p : FPath) : d.isDir p = true ↔ p = [] ∨ p ∈ d.dirs := by
  simp [Disk.isDir]

theorem makeDirs_ok (todo : FPath) (d : Disk F) (done : FPath) (h : ∀ q, q ≠ [] → q <+: todo → Dict.get? d.files (done ++ q) = none) :
    ∃ d', makeDirs d done todo = .ok d' ∧ d'.files = d.files ∧
      ∀ q, d'.isDir q = true ↔ d.isDir q = true ∨ ∃ r, r ≠ [] ∧ r <+: todo ∧ q = done ++ r := by
  induction todo generalizing d done with
  | nil =>
    refine ⟨d, rfl, rfl, fun q => ⟨Or.inl, ?_⟩⟩
    rintro (h | ⟨r, h1, h2, -⟩)
    · exact h
    · exact absurd (List.prefix_nil.1 h2) h1
  | cons c todo ih =>
    unfold makeDirs
    simp only
    rw [h [c] (by simp) ⟨todo, rfl⟩]
    simp only [Option.isSome_none, Bool.false_eq_true, if_false]
    set d1 := (if d.isDir (done ++ [c]) = true then d else { d with dirs := d.dirs ++ [done ++ [c]] }) with hd1
    have hf : d1.files = d.files := by rw [hd1]; split <;> rfl
    have hdir : ∀ q, d1.isDir q = true ↔ d.isDir q = true ∨ q = done ++ [c] := by
      intro q
      rw [hd1]
      split
      · rename_i hx
        constructor
        · exact Or.inl
        · rintro (hq | rfl)
          · exact hq
          · exact hx
      · simp only [isDir_iff, List.mem_append, List.mem_singleton]
        exact or_assoc.symm
    obtain ⟨d', h1, h2, h3⟩ := ih d1 (done ++ [c]) (by
      intro q hq hp
      rw [hf, List.append_assoc]
      exact h ([c] ++ q) (by simp) ((List.prefix_append_right_inj [c]).2 hp))
    refine ⟨d', h1, h2.trans hf, fun q => ?_⟩
    rw [h3, hdir]
    constructor
    · rintro ((hq | rfl) | ⟨r, hr, hp, rfl⟩)
      · exact Or.inl hq
      · exact Or.inr ⟨[c], by simp, ⟨todo, rfl⟩, rfl⟩
      · exact Or.inr ⟨c :: r, by simp, (List.prefix_append_right_inj [c]).2 hp, by simp⟩
    · rintro (hq | ⟨r, hr, hp, rfl⟩)
      · exact Or.inl (Or.inl hq)
      · cases r with
        | nil => exact absurd rfl hr
        | cons x r =>
          obtain ⟨rfl, hp'⟩ := List.cons_prefix_cons.1 hp
          by_cases hr' : r = []
          · subst hr'; exact Or.inl (Or.inr rfl)
          · exact Or.inr ⟨r, hr', hp', by simp⟩

theorem makeDirs_blocked (todo : FPath) (d : Disk F) (done : FPath) (h : ∃ q, q ≠ [] ∧ q <+: todo ∧ Dict.get? d.files (done ++ q) ≠ none) :
    makeDirs d done todo = .error .ioError := by
  induction todo generalizing d done with
  | nil => obtain ⟨q, h1, h2, -⟩ := h; exact absurd (List.prefix_nil.1 h2) h1
  | cons c todo ih =>
    unfold makeDirs
    simp only
    by_cases hc : (Dict.get? d.files (done ++ [c])).isSome = true
    · rw [if_pos hc]
    · rw [if_neg hc]
      refine ih _ _ ?_
      obtain ⟨q, h1, h2, h3⟩ := h
      cases q with
      | nil => exact absurd rfl h1
      | cons x q =>
        obtain ⟨rfl, hp⟩ := List.cons_prefix_cons.1 h2
        refine ⟨q, ?_, hp, ?_⟩
        · rintro rfl
          exact hc (Option.isSome_iff_ne_none.2 h3)
        · rw [List.append_assoc]
          split <;> exact h3

/-- nothing on the way to a directory is a file -/
def Free (d : Disk F) (dir : FPath) : Prop := ∀ q, q ≠ [] → q <+: dir → Dict.get? d.files q = none

/-- C126: `create_directory` makes the directory and the missing ones above it, and nothing else; calling it again changes nothing. -/
theorem C126_directory (d : Disk F) (dir : FPath) (h : Free d dir) : ∃ d', createDirectory d dir = .ok d' ∧ d'.files = d.files ∧ d'.isDir dir = true ∧
    (∀ q, d.isDir q = true → d'.isDir q = true) ∧ (∀ q, d'.isDir q = true → d.isDir q = true ∨ q <+: dir) ∧ createDirectory d' dir = .ok d' := by
  unfold createDirectory
  by_cases h0 : dir = []
  · rw [if_pos h0]
    exact ⟨d, rfl, rfl, (isDir_iff _ _).2 (Or.inl h0), fun _ hq => hq, fun _ hq => Or.inl hq, by rw [if_pos h0]⟩
  · rw [if_neg h0]
    by_cases he : d.exists dir = true
    · rw [if_pos he]
      refine ⟨d, rfl, rfl, ?_, fun _ hq => hq, fun _ hq => Or.inl hq, by rw [if_neg h0, if_pos he]⟩
      unfold Disk.exists at he
      rwa [h dir h0 (List.prefix_refl _), Option.isSome_none, Bool.or_false] at he
    · rw [if_neg he]
      obtain ⟨d', h1, h2, h3⟩ := makeDirs_ok dir d [] (fun q hq hp => by simpa using h q hq hp)
      have hdir : d'.isDir dir = true := (h3 dir).2 (Or.inr ⟨dir, h0, List.prefix_refl _, rfl⟩)
      refine ⟨d', h1, h2, hdir, fun q hq => (h3 q).2 (Or.inl hq), fun q hq => ?_, ?_⟩
      · rcases (h3 q).1 hq with hq | ⟨r, -, hp, rfl⟩
        · exact Or.inl hq
        · exact Or.inr (by simpa using hp)
      · rw [if_neg h0, if_pos (by unfold Disk.exists; rw [hdir]; rfl)]

/-- C126: a file in the way of a missing directory raises. -/
theorem C126_blocked (d : Disk F) (dir : FPath) (hm : d.exists dir = false) (h : ¬ Free d dir) : createDirectory d dir = .error .ioError := by
  unfold createDirectory
  have h0 : dir ≠ [] := by rintro rfl; simp [Disk.exists, Disk.isDir] at hm
  rw [if_neg h0, if_neg (by rw [hm]; simp)]
  refine makeDirs_blocked dir d [] ?_
  unfold Free at h
  push Not at h
  obtain ⟨q, h1, h2, h3⟩ := h
  exact ⟨q, h1, h2, by simpa using h3⟩

/-- the name of a file with an extension: a stem that is not only dots and an extension of at least one character -/
def Named (name stem ext : List Char) : Prop :=
  name = stem ++ '.' :: ext ∧ ext ≠ [] ∧ '/' ∉ stem ∧ '/' ∉ ext ∧ '.' ∉ ext ∧ ∃ c ∈ stem, c ≠ '.'

theorem named_root (name stem ext : List Char) (h : Named name stem ext) : splitextRoot name = stem ∧ extension name = '.' :: ext ∧ figureName name = name := by
  obtain ⟨rfl, h1, h2, h3, h4, h5⟩ := h
  have hr : splitextRoot (stem ++ '.' :: ext) = stem := by simpa using splitext_spec [] stem ext (Or.inl rfl) h2 h3 h4 h5
  have he : extension (stem ++ '.' :: ext) = '.' :: ext := by unfold extension; rw [hr, List.drop_left]
  refine ⟨hr, he, ?_⟩
  unfold figureName
  rw [he, if_neg]
  have := List.length_pos_iff.2 h1
  simp only [List.length_cons]
  omega

/-- C126 (missing: names without an extension): the figure with its labels is afterwards in the file of the given path, which is the one reported; all other
files are as they were, the directory exists and the figure is closed. -/
theorem C126_saved_partial (known : List Char → Bool) (finish : F → F) (d : Disk F) (p : Plot F) (dir : FPath) (name stem ext : List Char)
    (hn : Named name stem ext) (hk : known ('.' :: ext) = true) (hfree : Free d dir) (hdir : d.isDir (dir ++ [name]) = false) :
    ∃ d' p', savePlot known finish d p dir name = .ok (d', p', dir ++ [name]) ∧
      (∀ q, d'.isDir q = true → d.isDir q = true ∨ q <+: dir) ∧ Dict.get? d'.files (dir ++ [name]) = some (finish p.fig) ∧
      (∀ q, q ≠ dir ++ [name] → Dict.get? d'.files q = Dict.get? d.files q) ∧ d'.isDir dir = true ∧ p'.closed = true := by
  obtain ⟨d1, h1, h2, h3, -, h5, -⟩ := C126_directory d dir hfree
  obtain ⟨-, he, hf⟩ := named_root name stem ext hn
  have hnd : d1.isDir (dir ++ [name]) = false := by
    rw [← Bool.not_eq_true]
    intro hq
    rcases h5 _ hq with hq | hq
    · rw [hdir] at hq; cases hq
    · have := hq.length_le; simp only [List.length_append, List.length_singleton] at this; omega
  refine ⟨_, _, by unfold savePlot; rw [h1]; unfold saveFig; simp only [hf, he, hk, h3, hnd]; rfl, ?_, ?_, ?_, ?_, rfl⟩
  · intro q hq; apply h5; rw [isDir_iff] at hq ⊢; exact hq
  · simp only; rw [Dict.get?_set_self]
  · intro q hq; simp only; rw [Dict.get?_set_ne _ _ (Ne.symm hq), h2]
  · rw [isDir_iff] at h3 ⊢; exact h3

theorem extension_short (name : List Char) (hs : '/' ∉ name) (h : ∀ stem ext, ¬ Named name stem ext) : (extension name).length ≤ 1 := by
  have hroot : splitextRoot name = name → (extension name).length ≤ 1 := by
    intro hr; unfold extension; rw [hr]; simp
  by_cases hdot : '.' ∈ name
  · obtain ⟨as, bs, e, has⟩ := List.eq_append_cons_of_mem (List.mem_reverse.2 hdot)
    have e' : name = bs.reverse ++ '.' :: as.reverse := by
      have := congrArg List.reverse e
      simpa using this
    have h1 : '/' ∉ bs.reverse := fun hm => hs (by rw [e']; exact List.mem_append_left _ hm)
    have h2 : '/' ∉ as.reverse := fun hm => hs (by rw [e']; exact List.mem_append_right _ (List.mem_cons_of_mem _ hm))
    have h3 : '.' ∉ as.reverse := by simpa using has
    by_cases hc : ∃ c ∈ bs.reverse, c ≠ '.'
    · have hr : splitextRoot name = bs.reverse := by
        rw [e']; simpa using splitext_spec [] bs.reverse as.reverse (Or.inl rfl) h1 h2 h3 hc
      have hx : extension name = '.' :: as.reverse := by
        unfold extension; rw [hr, e', List.drop_left]
      by_cases hne : as.reverse = []
      · rw [hx, hne]; simp
      · exact absurd ⟨e', hne, h1, h2, h3, hc⟩ (h bs.reverse as.reverse)
    · apply hroot
      push Not at hc
      unfold splitextRoot
      have hsd := splitDir_spec [] name (Or.inl rfl) hs
      rw [List.nil_append] at hsd
      rw [hsd]
      simp only
      rw [if_neg]
      intro hm
      rw [e', List.dropWhile_append_of_pos (by intro a ha; simpa using hc a ha)] at hm
      rw [List.dropWhile_cons_of_pos (by simp)] at hm
      exact h3 ((List.dropWhile_sublist _).subset hm)
  · exact hroot (by simpa using splitext_none [] name (Or.inl rfl) hs hdot)

theorem figureName_ne (name : List Char) (h : (extension name).length ≤ 1) : figureName name ≠ name := by
  unfold figureName
  rw [if_pos h]
  intro e
  have hl : (name.reverse.dropWhile (· = '.')).reverse = name := by
    rw [← e]
    simp [List.reverse_append]
  rw [hl] at e
  have := congrArg List.length e
  simp at this

/-- C126: whatever the name, a save that returns wrote exactly one file; it is the one that was given and reported for exactly the names with an extension. -/
theorem C126_exactly_partial (known : List Char → Bool) (finish : F → F) (d d' : Disk F) (p p' : Plot F) (dir path : FPath) (name : List Char) (hs : '/' ∉ name)
    (h : savePlot known finish d p dir name = .ok (d', p', path)) :
    path = dir ++ [name] ∧ p'.closed = true ∧ ∃ written, Dict.get? d'.files (dir ++ [written]) = some (finish p.fig) ∧
      (∀ q, q ≠ dir ++ [written] → Dict.get? d'.files q = Dict.get? d.files q) ∧ (written = name ↔ ∃ stem ext, Named name stem ext) := by
  unfold savePlot at h
  cases h1 : createDirectory d dir with
  | error e => rw [h1] at h; cases h
  | ok d1 =>
    rw [h1] at h
    simp only at h
    have hfiles : d1.files = d.files := by
      have hmk : ∀ (todo : FPath) (d d1 : Disk F) (done : FPath), makeDirs d done todo = .ok d1 → d1.files = d.files := by
        intro todo
        induction todo with
        | nil => intro d d1 done h; cases h; rfl
        | cons c todo ih =>
          intro d d1 done h
          unfold makeDirs at h
          simp only at h
          split at h
          · cases h
          · rw [ih _ _ _ h]; split <;> rfl
      unfold createDirectory at h1
      split at h1
      · cases h1; rfl
      · split at h1
        · cases h1; rfl
        · exact hmk _ _ _ _ h1
    cases h2 : saveFig known d1 dir name (finish p.fig) with
    | error e => rw [h2] at h; cases h
    | ok d2 =>
      rw [h2] at h
      simp only [Except.ok.injEq, Prod.mk.injEq] at h
      obtain ⟨rfl, rfl, rfl⟩ := h
      refine ⟨rfl, rfl, figureName name, ?_⟩
      unfold saveFig at h2
      simp only at h2
      split at h2
      · cases h2
      · split at h2
        · cases h2
        · split at h2
          · cases h2
          · cases h2
            refine ⟨Dict.get?_set_self _ _ _, fun q hq => ?_, ?_⟩
            · rw [← hfiles]; exact Dict.get?_set_ne _ _ (Ne.symm hq)
            · constructor
              · intro he
                by_contra hn
                push Not at hn
                exact figureName_ne name (extension_short name hs hn) he
              · rintro ⟨stem, ext, hn⟩
                exact (named_root name stem ext hn).2.2

example : ¬ ∃ stem ext, Named "figure".toList stem ext := by
  rintro ⟨stem, ext, h, -⟩
  have : '.' ∈ "figure".toList := by rw [h]; simp
  revert this; decide

/-- C126 is false: with a name without an extension the figure is written to another file than the one given and reported. -/
theorem C126_false (known : List Char → Bool) (hk : known ".png".toList = true) (finish : F → F) (f : F) :
    ∃ d' p', savePlot known finish ⟨[], []⟩ ⟨f, false⟩ [] "figure".toList = .ok (d', p', ["figure".toList]) ∧
      Dict.get? d'.files ["figure".toList] = none ∧ Dict.get? d'.files ["figure.png".toList] = some (finish f) := by
  have h1 : figureName "figure".toList = "figure.png".toList := by decide
  have h2 : extension "figure.png".toList = ".png".toList := by decide
  refine ⟨⟨[], [(["figure.png".toList], finish f)]⟩, ⟨finish f, true⟩, ?_, ?_, ?_⟩
  · unfold savePlot createDirectory
    rw [if_pos rfl]
    unfold saveFig
    simp only [h1, h2, hk]
    rfl
  · rfl
  · rfl

/-- C126: the image of a camera in a PDF file has a cropped copy beside it if PyPDF2 is installed; all other files are as they were. -/
theorem C126_pdf (known : List Char → Bool) (finish cut : F → F) (pypdf : Bool) (d : Disk F) (p : Plot F) (dir : FPath) (name stem ext : List Char)
    (hn : Named name stem ext) (hk : known ('.' :: ext) = true) (hfree : Free d dir) (hdir : d.isDir (dir ++ [name]) = false)
    (hcrop : d.isDir (dir ++ [stem ++ "_cropped.pdf".toList]) = false) :
    ∃ d' p', saveImage known finish cut pypdf d p dir name = .ok (d', p', dir ++ [name]) ∧ p'.closed = true ∧
      Dict.get? d'.files (dir ++ [name]) = some (finish p.fig) ∧
      (ext = "pdf".toList → pypdf = true → Dict.get? d'.files (dir ++ [stem ++ "_cropped.pdf".toList]) = some (cut (finish p.fig))) ∧
      ∀ q, q ≠ dir ++ [name] → (q = dir ++ [stem ++ "_cropped.pdf".toList] → ext ≠ "pdf".toList ∨ pypdf = false) →
        Dict.get? d'.files q = Dict.get? d.files q := by
  obtain ⟨d1, p1, h1, h0, h2, h3, h4, h5⟩ := C126_saved_partial known finish d p dir name stem ext hn hk hfree hdir
  obtain ⟨hr, he, -⟩ := named_root name stem ext hn
  have hsuf : ".pdf".toList.isSuffixOf name = true ↔ ext = "pdf".toList := by
    rw [List.isSuffixOf_iff_suffix]
    obtain ⟨rfl, hne, -, -, hdot, -⟩ := hn
    constructor
    · rintro ⟨t, ht⟩
      have hd : t ++ '.' :: "pdf".toList = stem ++ '.' :: ext := ht
      have h := congrArg (fun l => (l.reverse.takeWhile (· ≠ '.')).reverse) hd
      have key : ∀ (s e : List Char), '.' ∉ e → ((s ++ '.' :: e).reverse.takeWhile (· ≠ '.')).reverse = e := by
        intro s e he
        rw [List.reverse_append, List.reverse_cons, List.append_assoc, List.takeWhile_append_of_pos (by
          intro c hc
          have : c ∈ e := by simpa using hc
          simpa using fun hx : c = '.' => he (hx ▸ this))]
        simp
      rw [key t _ (by decide), key stem _ hdot] at h
      exact h.symm
    · rintro rfl; exact ⟨stem, rfl⟩
  unfold saveImage
  rw [h1]
  simp only
  by_cases hc : (".pdf".toList.isSuffixOf name && pypdf) = true
  · rw [if_pos hc]
    rw [Bool.and_eq_true, hsuf] at hc
    unfold cropPdf
    rw [h2, hr]
    simp only
    rw [if_neg (by
      intro hq
      rcases h0 _ hq with hq | hq
      · rw [hcrop] at hq; cases hq
      · have := hq.length_le; simp only [List.length_append, List.length_singleton] at this; omega)]
    have hne : dir ++ [stem ++ "_cropped.pdf".toList] ≠ dir ++ [name] := by
      intro he
      have := List.singleton_inj.1 (List.append_cancel_left he)
      rw [hn.1, hc.1] at this
      have := congrArg List.length this
      simp at this
    refine ⟨_, _, rfl, h5, ?_, ?_, ?_⟩
    · simp only; rw [Dict.get?_set_ne _ _ hne, h2]
    · intro _ _; simp only; rw [Dict.get?_set_self]
    · intro q hq hq2
      rw [Dict.get?_set_ne, h3 q hq]
      rintro rfl
      rcases hq2 rfl with h | h
      · exact h hc.1
      · rw [hc.2] at h; cases h
  · rw [if_neg hc]
    refine ⟨d1, p1, rfl, h5, h2, fun h6 h7 => ?_, fun q hq _ => h3 q hq⟩
    exact absurd (by rw [Bool.and_eq_true, hsuf]; exact ⟨h6, h7⟩) hc

/-- C126: the file written for a name without an extension: dots at the end are dropped and `.png` is appended. -/
theorem C126_unnamed (known : List Char → Bool) (finish : F → F) (d d' : Disk F) (p p' : Plot F) (dir path : FPath) (stem : List Char) (k : Nat)
    (hs : '/' ∉ stem) (hlast : stem.getLast? ≠ some '.') (hn : ∀ s e, ¬ Named (stem ++ List.replicate k '.') s e)
    (h : savePlot known finish d p dir (stem ++ List.replicate k '.') = .ok (d', p', path)) :
    Dict.get? d'.files (dir ++ [stem ++ ".png".toList]) = some (finish p.fig) := by
  have hslash : '/' ∉ stem ++ List.replicate k '.' := by
    intro hm
    rcases List.mem_append.1 hm with hm | hm
    · exact hs hm
    · have := List.eq_of_mem_replicate hm; revert this; decide
  have hf : figureName (stem ++ List.replicate k '.') = stem ++ ".png".toList := by
    unfold figureName
    rw [if_pos (extension_short _ hslash hn), List.reverse_append, List.reverse_replicate,
      List.dropWhile_append_of_pos (by intro c hc; simpa using List.eq_of_mem_replicate hc)]
    have : stem.reverse.dropWhile (· = '.') = stem.reverse := by
      cases hr : stem.reverse with
      | nil => rfl
      | cons c cs =>
        have : stem.getLast? = some c := by rw [List.getLast?_eq_head?_reverse, hr]; rfl
        rw [List.dropWhile_cons_of_neg]
        intro hc
        exact hlast (by rw [this]; simpa using hc)
    rw [this, List.reverse_reverse]
  unfold savePlot at h
  cases h1 : createDirectory d dir with
  | error e => rw [h1] at h; cases h
  | ok d1 =>
    rw [h1] at h
    simp only at h
    cases h2 : saveFig known d1 dir (stem ++ List.replicate k '.') (finish p.fig) with
    | error e => rw [h2] at h; cases h
    | ok d2 =>
      rw [h2] at h
      simp only [Except.ok.injEq, Prod.mk.injEq] at h
      obtain ⟨rfl, rfl, rfl⟩ := h
      unfold saveFig at h2
      simp only [hf] at h2
      split at h2
      · cases h2
      · split at h2
        · cases h2
        · split at h2
          · cases h2
          · cases h2
            exact Dict.get?_set_self _ _ _

/-- C126: a format unknown to matplotlib is a `ValueError`, a directory in place of the file or of its cropped copy an `OSError`. -/
theorem C126_errors (known : List Char → Bool) (finish cut : F → F) (d : Disk F) (p : Plot F) (dir : FPath) (name stem ext : List Char)
    (hn : Named name stem ext) (hfree : Free d dir) :
    (known ('.' :: ext) = false → savePlot known finish d p dir name = .error .valueError) ∧
    (known ('.' :: ext) = true → d.isDir (dir ++ [name]) = true → savePlot known finish d p dir name = .error .ioError) ∧
    (known ('.' :: ext) = true → d.isDir (dir ++ [name]) = false → ext = "pdf".toList → d.isDir (dir ++ [stem ++ "_cropped.pdf".toList]) = true →
      saveImage known finish cut true d p dir name = .error .ioError) := by
  obtain ⟨d1, h1, h2, h3, h4, h5, -⟩ := C126_directory d dir hfree
  obtain ⟨hr, he, hf⟩ := named_root name stem ext hn
  refine ⟨fun hk => ?_, fun hk hd => ?_, fun hk hd hx hc => ?_⟩
  · unfold savePlot
    rw [h1]
    unfold saveFig
    simp only [hf, he, hk, if_true]
  · unfold savePlot
    rw [h1]
    unfold saveFig
    simp only [hf, he, hk, h3, h4 _ hd]
    rfl
  · obtain ⟨d2, p2, e1, e2, e3, -, -, -⟩ := C126_saved_partial known finish d p dir name stem ext hn hk hfree hd
    have hsave : d2.isDir (dir ++ [stem ++ "_cropped.pdf".toList]) = true := by
      unfold savePlot at e1
      rw [h1] at e1
      simp only at e1
      cases hsf : saveFig known d1 dir name (finish p.fig) with
      | error e => rw [hsf] at e1; cases e1
      | ok d3 =>
        rw [hsf] at e1
        simp only [Except.ok.injEq, Prod.mk.injEq] at e1
        obtain ⟨rfl, -, -⟩ := e1
        unfold saveFig at hsf
        simp only at hsf
        split at hsf
        · cases hsf
        · split at hsf
          · cases hsf
          · split at hsf
            · cases hsf
            · cases hsf
              have := h4 _ hc
              rw [isDir_iff] at this ⊢
              exact this
    unfold saveImage
    rw [e1]
    have hsuf : (".pdf".toList.isSuffixOf name && true) = true := by
      rw [Bool.and_true, List.isSuffixOf_iff_suffix, hn.1, hx]
      exact ⟨stem, rfl⟩
    simp only
    rw [if_pos hsuf]
    unfold cropPdf
    rw [e3, hr]
    simp only
    rw [if_pos hsave]

/-- the cases for `C126_unnamed` and `C126_errors` -/
example : (∃ d' p', savePlot (fun e => e = ".png".toList) (· + 1) ⟨[], []⟩ ⟨5, false⟩ [] "figure..".toList = .ok (d', p', ["figure..".toList]) ∧
      d'.files = [(["figure.png".toList], 6)]) ∧
    savePlot (fun e => e = ".png".toList) (· + 1) ⟨[], []⟩ ⟨5, false⟩ [] "figure.xyz".toList = .error .valueError := by
  refine ⟨⟨_, _, rfl, by decide⟩, rfl⟩

/-- a disk with one directory; formats png and pdf -/
example : Named "run.1.pdf".toList "run.1".toList "pdf".toList ∧ Free (⟨[["plots".toList]], []⟩ : Disk Nat) ["plots".toList, "new".toList] ∧
    (∃ d' p', saveImage (fun e => e = ".png".toList || e = ".pdf".toList) (· + 1) (· + 10) true ⟨[["plots".toList]], []⟩ ⟨5, false⟩
      ["plots".toList, "new".toList] "run.1.pdf".toList = .ok (d', p', ["plots".toList, "new".toList, "run.1.pdf".toList]) ∧
      d'.dirs = [["plots".toList], ["plots".toList, "new".toList]] ∧
      d'.files = [(["plots".toList, "new".toList, "run.1.pdf".toList], 6), (["plots".toList, "new".toList, "run.1_cropped.pdf".toList], 16)]) ∧
    ¬ Free (⟨[], [(["plots".toList], 0)]⟩ : Disk Nat) ["plots".toList, "new".toList] := by
  refine ⟨⟨rfl, by decide, by decide, by decide, by decide, 'r', by decide, by decide⟩, fun q _ _ => rfl, ⟨_, _, rfl, by decide, by decide⟩, fun h => ?_⟩
  have := h ["plots".toList] (by simp) ⟨["new".toList], rfl⟩
  cases this

end Verif.Props
