import Verif.Model.PixelMasks
import Verif.Spec.Files
import Verif.Lemmas.Files
import Verif.Props.Files

/-! # C34-C37: pixel masks -/

namespace Verif.Props

open Verif.Py Verif.Model Verif.Spec Verif.Lemmas

/-! ## C34: the latest commit is loaded by default -/

theorem two_digits : ∀ n < 100, (decimalPad 2 n).length = 2 := by decide +kernel

theorem digits_append (a b : List Char) (ha : Digits a) (hb : Digits b) : Digits (a ++ b) :=
  ⟨by simp [ha.1], fun c hc => by
    rcases List.mem_append.1 hc with h | h
    · exact ha.2 c h
    · exact hb.2 c h⟩

theorem digits_pad (w n : Nat) : Digits (decimalPad w n) := (digits_iff _).2 ⟨decimalPad_ne_nil w n, decimalPad_digits w n⟩

/-- key order of two commit paths is the order of their dates -/
theorem commit_keyLt (dir : List Char) (hdir : ∀ c ∈ dir, isSuperscript c = false) (c : Nat) (a b : Clock)
    (hac : a.year / 100 = c) (hbc : b.year / 100 = c) (ha : Clock.Valid a) (hb : Clock.Valid b) :
    ∃ ka kb, naturalKeys (commitPath dir a) = .ok ka ∧ naturalKeys (commitPath dir b) = .ok kb ∧
      (keyLt ka kb = .ok true ↔ Clock.Before a b) := by
  have form : ∀ t : Clock, commitPath dir t = (dir ++ ['d']) ++ (decimalPad 2 (t.year % 100) ++ (decimalPad 2 t.month ++ decimalPad 2 t.day)) ++
      (['T'] ++ (decimalPad 2 t.hour ++ decimalPad 2 t.minute) ++ ['.', 'd', 'a', 't']) := by
    intro t; unfold commitPath; simp only [List.append_assoc]
  have sup : ∀ t : Clock, ∀ x ∈ commitPath dir t, isSuperscript x = false := by
    have ds : ∀ (d : List Char), Digits d → ∀ x ∈ d, isSuperscript x = false := by
      intro d hd x hx
      have := ((digits_iff _).1 hd).2 x hx
      unfold isDigitChar at this
      unfold isSuperscript
      simp only [Bool.and_eq_true, decide_eq_true_eq] at this
      simp only [Bool.or_eq_false_iff, beq_eq_false_iff_ne]
      omega
    intro t x hx
    unfold commitPath at hx
    simp only [List.mem_append] at hx
    rcases hx with (((((((h | h) | h) | h) | h) | h) | h) | h) | h
    · exact hdir x h
    · rw [List.mem_singleton.1 h]; decide
    · exact ds _ (digits_pad _ _) x h
    · exact ds _ (digits_pad _ _) x h
    · exact ds _ (digits_pad _ _) x h
    · rw [List.mem_singleton.1 h]; decide
    · exact ds _ (digits_pad _ _) x h
    · exact ds _ (digits_pad _ _) x h
    · simp only [List.mem_cons, List.not_mem_nil, or_false] at h
      rcases h with rfl | rfl | rfl | rfl <;> decide
  obtain ⟨ka, hka⟩ := splitRuns_key false [] (commitPath dir a) (by simp) (by simp) (by simpa using sup a)
  obtain ⟨kb, hkb⟩ := splitRuns_key false [] (commitPath dir b) (by simp) (by simp) (by simpa using sup b)
  refine ⟨ka, kb, hka, hkb, ?_⟩
  have hka' : naturalKeys (commitPath dir a) = .ok ka := hka
  have hkb' : naturalKeys (commitPath dir b) = .ok kb := hkb
  rw [form] at hka' hkb'
  have hd : ∀ x y z, Digits (decimalPad 2 x ++ (decimalPad 2 y ++ decimalPad 2 z)) := fun x y z =>
    digits_append _ _ (digits_pad _ _) (digits_append _ _ (digits_pad _ _) (digits_pad _ _))
  have hpd : NoDigitBehind (dir ++ ['d']) := by
    intro x hx
    rw [List.getLast?_append] at hx
    simp only [List.getLast?_singleton, Option.some_or, Option.some.injEq] at hx
    subst hx; decide
  have hT : ∀ s : List Char, NoDigitAhead (['T'] ++ s ++ ['.', 'd', 'a', 't']) := by
    intro s x hx
    simp only [List.cons_append, List.head?_cons, Option.some.injEq] at hx
    subst hx; decide
  obtain ⟨q, q', h1, h2, h3⟩ := keyLt_number (dir ++ ['d']) _ _ _ _ hpd (hd _ _ _) (hd _ _ _) (hT _) (hT _) ka kb hka' hkb'
  have hTb : NoDigitBehind ['T'] := by
    intro x hx
    simp only [List.getLast?_singleton, Option.some.injEq] at hx
    subst hx; decide
  have hdat : NoDigitAhead ['.', 'd', 'a', 't'] := by
    intro x hx
    simp only [List.head?_cons, Option.some.injEq] at hx
    subst hx; decide
  have h2d : ∀ x y, Digits (decimalPad 2 x ++ decimalPad 2 y) := fun x y => digits_append _ _ (digits_pad _ _) (digits_pad _ _)
  obtain ⟨p, p', g1, g2, g3⟩ := keyLt_number ['T'] _ _ _ _ hTb (h2d _ _) (h2d _ _) hdat hdat q q' h1 h2
  rw [g1] at g2
  injection g2 with g2
  subst g2
  have irr : ∀ k : List KeyEl, keyLt k k = .ok false := by
    intro k
    induction k with
    | nil => rfl
    | cons x k ih => rw [keyLt, if_pos rfl, ih]
  rw [irr] at g3
  have pd : ∀ x y z, x < 100 → y < 100 → z < 100 → parseDec (decimalPad 2 x ++ (decimalPad 2 y ++ decimalPad 2 z)) = x * 10000 + (y * 100 + z) := by
    intro x y z hx hy hz
    rw [parseDec_append, parseDec_append]
    simp [two_digits _ hy, two_digits _ hz]
  have pt : ∀ x y, x < 100 → y < 100 → parseDec (decimalPad 2 x ++ decimalPad 2 y) = x * 100 + y := by
    intro x y hx hy
    rw [parseDec_append]
    simp [two_digits _ hy]
  obtain ⟨a1, a2, a3, a4, a5, a6⟩ := ha
  obtain ⟨b1, b2, b3, b4, b5, b6⟩ := hb
  rw [pt _ _ (by omega) (by omega), pt _ _ (by omega) (by omega)] at g3
  rw [g3, pd _ _ _ (by omega) (by omega) (by omega), pd _ _ _ (by omega) (by omega) (by omega)] at h3
  rw [h3]
  have hy : a.year % 100 = a.year - 100 * c := by omega
  have hy' : b.year % 100 = b.year - 100 * c := by omega
  have : 100 * c ≤ a.year := by omega
  have : 100 * c ≤ b.year := by omega
  unfold Clock.Before
  rw [hy, hy']
  split
  · split
    · simp only [Except.ok.injEq, Bool.false_eq_true, false_iff]
      omega
    · simp only [Except.ok.injEq, decide_eq_true_eq]
      omega
  · simp only [Except.ok.injEq, decide_eq_true_eq]
    omega

/-- C34: among files named by their commit times (in one century), found in any order, the default path is the one of a
latest commit. -/
theorem C34_latest (dir : List Char) (hdir : ∀ c ∈ dir, isSuperscript c = false) (c : Nat) (times : List Clock)
    (hv : ∀ t ∈ times, Clock.Valid t ∧ t.year / 100 = c) (hne : times ≠ []) (paths : List (List Char))
    (hp : ∀ p, p ∈ paths ↔ ∃ t ∈ times, p = commitPath dir t) :
    ∃ t ∈ times, defaultPath paths = .ok (commitPath dir t) ∧ ∀ u ∈ times, ¬ Clock.Before t u := by
  have hkeys : ∀ n ∈ paths, ∃ k, naturalKeys n = .ok k := by
    intro n hn
    obtain ⟨t, ht, rfl⟩ := (hp n).1 hn
    obtain ⟨k, _, h, _⟩ := commit_keyLt dir hdir c t t (hv t ht).2 (hv t ht).2 (hv t ht).1 (hv t ht).1
    exact ⟨k, h⟩
  have hs : sortFileList paths = .ok (paths.mergeSort nameLe) := by
    unfold sortFileList; rw [allKeys_ok paths hkeys]
  obtain ⟨hperm, hpw⟩ := C33_sorted paths _ hs
  unfold defaultPath
  rw [hs]
  simp only
  generalize paths.mergeSort nameLe = r at hperm hpw
  have hr : r ≠ [] := by
    intro h
    obtain ⟨t, ht⟩ := List.exists_mem_of_ne_nil _ hne
    have := hperm.mem_iff.2 ((hp (commitPath dir t)).2 ⟨t, ht, rfl⟩)
    rw [h] at this; cases this
  obtain ⟨init, last, rfl⟩ : ∃ init last, r = init ++ [last] := ⟨r.dropLast, r.getLast hr, (List.dropLast_append_getLast hr).symm⟩
  obtain ⟨t, ht, rfl⟩ := (hp last).1 (hperm.mem_iff.1 (by simp))
  refine ⟨t, ht, by simp, fun u hu hb => ?_⟩
  have hu' := hperm.mem_iff.2 ((hp (commitPath dir u)).2 ⟨u, hu, rfl⟩)
  obtain ⟨kt, ku, h1, h2, h3⟩ := commit_keyLt dir hdir c t u (hv t ht).2 (hv u hu).2 (hv t ht).1 (hv u hu).1
  have h4 := h3.2 hb
  rcases List.mem_append.1 hu' with hu' | hu'
  · obtain ⟨ka, kb, e1, e2, e3⟩ := (List.pairwise_append.1 hpw).2.2 _ hu' _ (List.mem_singleton.2 rfl)
    rw [h2] at e1
    rw [h1] at e2
    injection e1 with e1
    injection e2 with e2
    subst e1 e2
    rw [h4] at e3
    cases e3
  · rw [List.mem_singleton.1 hu'] at h2
    rw [h1] at h2
    injection h2 with h2
    subst h2
    have irr : ∀ k : List KeyEl, keyLt k k = .ok false := by
      intro k
      induction k with
      | nil => rfl
      | cons x k ih => rw [keyLt, if_pos rfl, ih]
    rw [irr] at h4
    cases h4

/-- C34: without any file the default load raises `IndexError`. -/
theorem C34_no_files (files : List Char → Option MaskFile) : newMasks files [] none = .error .indexError := by
  unfold newMasks loadFile defaultPath sortFileList
  simp [allKeys]

/-- C34: a named file that does not exist raises `FileNotFoundError`, also when it was to be merged; so does a default file that has been removed meanwhile. -/
theorem C34_missing_file (files : List Char → Option MaskFile) (paths : List (List Char)) (m : Masks) (merge : Bool) (path : List Char) (h : files path = none) :
    loadFile files paths m (some path) merge = .error .fileNotFound ∧ newMasks files paths (some path) = .error .fileNotFound ∧
    (defaultPath paths = .ok path → loadFile files paths m none merge = .error .fileNotFound) := by
  refine ⟨by simp [loadFile, h], by simp [newMasks, loadFile, h], fun hd => ?_⟩
  unfold loadFile
  rw [hd]
  simp [h]

example : (newMasks (fun _ => none) [] (some "masks.dat".toList)).toOption = none := by decide +kernel

example : commitPath "calib/data/pixel_masks/".toList ⟨2019, 3, 7, 18, 5⟩ = "calib/data/pixel_masks/d190307T1805.dat".toList := by
  decide +kernel

example : Clock.Before ⟨2019, 3, 7, 18, 5⟩ ⟨2020, 1, 1, 0, 0⟩ ∧ Clock.Valid ⟨2019, 3, 7, 18, 5⟩ ∧ Clock.Valid ⟨2020, 1, 1, 0, 0⟩ := by
  refine ⟨Or.inl (by decide), ?_, ?_⟩ <;> unfold Clock.Valid <;> decide

/-- across a century the order is lost: the commit of 1999 counts as later than that of 2000 -/
theorem C34_century :
    Clock.Before ⟨1999, 12, 31, 0, 0⟩ ⟨2000, 1, 1, 0, 0⟩ ∧
    nameLe (commitPath [] ⟨1999, 12, 31, 0, 0⟩) (commitPath [] ⟨2000, 1, 1, 0, 0⟩) = false := by
  exact ⟨Or.inl (by decide), by decide +kernel⟩

/-! ## C35: save and load -/

theorem repeatEach_length {α : Type} (n : Nat) (a : List α) : (repeatEach n a).length = a.length * n := by
  induction a with
  | nil => simp [repeatEach]
  | cons x a ih =>
    unfold repeatEach at *
    rw [List.flatMap_cons, List.length_append, ih, List.length_replicate, List.length_cons, Nat.add_mul]
    omega

theorem repeatEach_getElem? {α : Type} (n : Nat) (hn : 0 < n) (a : List α) (i : Nat) : (repeatEach n a)[i]? = a[i / n]? := by
  induction a generalizing i with
  | nil => simp [repeatEach]
  | cons x a ih =>
    have e : repeatEach n (x :: a) = List.replicate n x ++ repeatEach n a := by simp [repeatEach]
    rw [e]
    by_cases h : i < n
    · rw [List.getElem?_append_left (by simpa using h), Nat.div_eq_of_lt h]
      simp [h]
    · rw [List.getElem?_append_right (by simp; omega), ih]
      have : i / n = (i - n) / n + 1 := by
        rw [← Nat.add_div_right (i - n) hn]
        congr 1; omega
      simp [this]

theorem repeatEach_drop {α : Type} (n : Nat) (a : List α) (s : Nat) : (repeatEach n a).drop (n * s) = repeatEach n (a.drop s) := by
  induction s generalizing a with
  | zero => simp
  | succ s ih =>
    cases a with
    | nil => simp [repeatEach]
    | cons x a =>
      have e : repeatEach n (x :: a) = List.replicate n x ++ repeatEach n a := by simp [repeatEach]
      rw [e, List.drop_append, List.drop_succ_cons, ← ih]
      simp only [List.length_replicate, Nat.mul_succ]
      rw [List.drop_of_length_le (by simp), List.nil_append, Nat.add_sub_cancel]

theorem anyOfFour_repeat (a : List Bool) (h : a.length = 512) : anyOfFour (repeatEach 4 a) = .ok a := by
  unfold anyOfFour
  rw [if_neg (by rw [repeatEach_length, h]; simp)]
  refine congrArg Except.ok (List.ext_getElem (by simp [h]) fun i h1 h2 => ?_)
  rw [List.getElem_map, List.getElem_range, repeatEach_drop]
  have e : a.drop i = a[i] :: a.drop (i + 1) := List.drop_eq_getElem_cons h2
  rw [e]
  have e2 : repeatEach 4 (a[i] :: a.drop (i + 1)) = List.replicate 4 a[i] ++ repeatEach 4 (a.drop (i + 1)) :=
    List.flatMap_cons
  rw [e2, List.take_left' (by simp)]
  cases a[i] <;> rfl

theorem saveFrame_full (m : Masks) (h : Masks.Full m) :
    saveFrame m = .ok ⟨List.range 2048, m.dead, m.low, repeatEach 4 m.badHv⟩ := by
  obtain ⟨h1, h2, h3⟩ := h
  unfold saveFrame
  simp only
  rw [if_pos ⟨by omega, by rw [repeatEach_length]; omega⟩, h1]

/-- C35: a saved mask set is loaded unchanged, whatever the masks, and whatever other files and previous masks there are. -/
theorem C35_round_trip (files files' : List Char → Option MaskFile) (paths : List (List Char)) (m m0 : Masks) (path : List Char)
    (h : Masks.Full m) (hs : saveFile files m path = .ok files') :
    newMasks files' paths (some path) = .ok m ∧ loadFile files' paths m0 (some path) false = .ok m ∧
    ∀ p, p ≠ path → files' p = files p := by
  unfold saveFile at hs
  rw [saveFrame_full m h] at hs
  injection hs with hs
  subst hs
  have key : ∀ m0, loadFile (fun p => if p = path then some ⟨List.range 2048, m.dead, m.low, repeatEach 4 m.badHv⟩ else files p)
      paths m0 (some path) false = .ok m := by
    intro m0
    unfold loadFile
    simp [loadFrame, loadState, anyOfFour_repeat m.badHv h.2.2]
  exact ⟨key _, key _, fun p hp => if_neg hp⟩

/-- C35: the masks of a full camera can always be saved, and the file lists for pixel `i` its own flags and the flag of
its superpixel `i / 4`. -/
theorem C35_file (files : List Char → Option MaskFile) (m : Masks) (path : List Char) (h : Masks.Full m) :
    ∃ files' f, saveFile files m path = .ok files' ∧ files' path = some f ∧ ∀ i < 2048,
      f.pixel[i]? = some i ∧ f.dead[i]? = m.dead[i]? ∧ f.low[i]? = m.low[i]? ∧ f.badHv[i]? = m.badHv[i / 4]? := by
  refine ⟨fun p => if p = path then some ⟨List.range 2048, m.dead, m.low, repeatEach 4 m.badHv⟩ else files p, _, ?_, if_pos rfl, fun i hi => ?_⟩
  · unfold saveFile; rw [saveFrame_full m h]
  · exact ⟨by simp [hi], rfl, rfl, repeatEach_getElem? 4 (by omega) _ _⟩

/-- C35: loading a file written by other means, in which the pixels of a superpixel need not agree: the pixel masks are those of the file and a superpixel is
bad if any of its four pixels is. A file without exactly 2048 rows raises `ValueError`. -/
theorem C35_any_file (files : List Char → Option MaskFile) (paths : List (List Char)) (m0 : Masks) (path : List Char) (f : MaskFile) (hf : files path = some f) :
    (f.badHv.length = 2048 → ∃ r, loadFile files paths m0 (some path) false = .ok r ∧ r.dead = f.dead ∧ r.low = f.low ∧ r.badHv.length = 512 ∧
      ∀ s < 512, (r.badHv[s]? = some true ↔ ∃ i, i / 4 = s ∧ f.badHv[i]? = some true)) ∧
    (f.badHv.length ≠ 2048 → loadFile files paths m0 (some path) false = .error .valueError) := by
  constructor
  · intro hl
    refine ⟨⟨f.dead, f.low, (List.range 512).map fun s => ((f.badHv.drop (4 * s)).take 4).any id⟩, by simp [loadFile, hf, loadFrame, loadState, anyOfFour, hl], rfl, rfl, by simp, ?_⟩
    intro s hs
    simp only [List.getElem?_map, List.getElem?_range hs, Option.map_some, Option.some.injEq, List.any_eq_true, id]
    constructor
    · rintro ⟨b, hb, rfl⟩
      obtain ⟨k, hk, he⟩ := List.mem_iff_getElem.1 hb
      rw [List.getElem_take, List.getElem_drop] at he
      simp only [List.length_take, List.length_drop] at hk
      exact ⟨4 * s + k, by omega, by rw [List.getElem?_eq_getElem (by omega), he]⟩
    · rintro ⟨i, hi, he⟩
      refine ⟨true, ?_, rfl⟩
      obtain ⟨h1, h2⟩ := List.getElem?_eq_some_iff.1 he
      refine List.mem_iff_getElem.2 ⟨i - 4 * s, by simp only [List.length_take, List.length_drop]; omega, ?_⟩
      rw [List.getElem_take, List.getElem_drop]
      simp only [show 4 * s + (i - 4 * s) = i by omega]
      exact h2
  · intro hl
    simp [loadFile, hf, loadFrame, loadState, anyOfFour, hl]

/-- pixel 5 alone is flagged: superpixel 1 is bad, superpixel 0 is not -/
example : (anyOfFour ((List.range 2048).map fun i => decide (i = 5))).toOption.map (fun r => (r[0]?, r[1]?)) = some (some false, some true) := by decide +kernel

/-- C35: masks whose sizes do not fit together cannot be saved. -/
theorem C35_inconsistent (files : List Char → Option MaskFile) (m : Masks) (path : List Char)
    (h : ¬ (m.low.length = m.dead.length ∧ m.badHv.length * 4 = m.dead.length)) : saveFile files m path = .error .valueError := by
  unfold saveFile saveFrame
  simp only
  rw [if_neg (by rw [repeatEach_length]; exact h)]

/-- C34 and C35 together: masks committed later than every existing file are what a new `PixelMasks()` contains. -/
theorem C34_commit_then_load (dir : List Char) (hdir : ∀ c ∈ dir, isSuperscript c = false) (c : Nat) (times : List Clock)
    (now : Clock) (hv : ∀ t ∈ now :: times, Clock.Valid t ∧ t.year / 100 = c) (hlater : ∀ t ∈ times, t = now ∨ Clock.Before t now)
    (files files' : List Char → Option MaskFile) (m : Masks) (h : Masks.Full m) (hs : commitMasks files m dir now = .ok files')
    (paths : List (List Char)) (hp : ∀ p, p ∈ paths ↔ ∃ t ∈ now :: times, p = commitPath dir t) :
    newMasks files' paths none = .ok m := by
  obtain ⟨t, ht, h1, h2⟩ := C34_latest dir hdir c (now :: times) hv (by simp) paths hp
  have htn : t = now := by
    rcases List.mem_cons.1 ht with rfl | ht'
    · rfl
    · rcases hlater t ht' with h3 | h3
      · exact h3
      · exact absurd h3 (h2 now (by simp))
  subst htn
  have h3 := (C35_round_trip files files' paths m m (commitPath dir t) h hs).1
  unfold newMasks loadFile at h3 ⊢
  simp only at h3 ⊢
  rw [h1]
  exact h3

/-! ## C36: merging -/

/-- merging the masks `b`, saved to a file, into `a` -/
def mergeInto (a b : Masks) : Except Err Masks :=
  match saveFrame b with
  | .error e => .error e
  | .ok f => loadFrame a f true

theorem mergeInto_full (a b : Masks) (ha : Masks.Full a) (hb : Masks.Full b) :
    mergeInto a b = .ok ⟨List.zipWith (· || ·) a.dead b.dead, List.zipWith (· || ·) a.low b.low, List.zipWith (· || ·) a.badHv b.badHv⟩ := by
  obtain ⟨a1, a2, a3⟩ := ha
  unfold mergeInto
  rw [saveFrame_full b hb]
  obtain ⟨b1, b2, b3⟩ := hb
  simp [loadFrame, loadState, mergeMasks, anyOfFour_repeat b.badHv b3, logicalOr, a1, a2, a3, b1, b2, b3]

theorem getElem?_zipWith_or (x y : List Bool) (h : x.length = y.length) (i : Nat) (hi : i < x.length) :
    (List.zipWith (· || ·) x y)[i]? = some ((x[i]?).getD false || (y[i]?).getD false) := by
  rw [List.getElem?_zipWith, List.getElem?_eq_getElem hi, List.getElem?_eq_getElem (by omega)]
  rfl

/-- C36: merging a file into the masks is the pixelwise (superpixelwise) or, and yields masks of a full camera again. -/
theorem C36_merge (a b : Masks) (ha : Masks.Full a) (hb : Masks.Full b) : ∃ r, mergeInto a b = .ok r ∧ Masks.Full r ∧
    (∀ i < 2048, r.dead[i]? = some ((a.dead[i]?).getD false || (b.dead[i]?).getD false)) ∧
    (∀ i < 2048, r.low[i]? = some ((a.low[i]?).getD false || (b.low[i]?).getD false)) ∧
    (∀ i < 512, r.badHv[i]? = some ((a.badHv[i]?).getD false || (b.badHv[i]?).getD false)) := by
  refine ⟨_, mergeInto_full a b ha hb, ?_, fun i hi => ?_, fun i hi => ?_, fun i hi => ?_⟩
  · obtain ⟨a1, a2, a3⟩ := ha
    obtain ⟨b1, b2, b3⟩ := hb
    exact ⟨by simp [a1, b1], by simp [a2, b2], by simp [a3, b3]⟩
  · exact getElem?_zipWith_or _ _ (by rw [ha.1, hb.1]) i (by rw [ha.1]; exact hi)
  · exact getElem?_zipWith_or _ _ (by rw [ha.2.1, hb.2.1]) i (by rw [ha.2.1]; exact hi)
  · exact getElem?_zipWith_or _ _ (by rw [ha.2.2, hb.2.2]) i (by rw [ha.2.2]; exact hi)

theorem zipWith_or_comm (x y : List Bool) : List.zipWith (· || ·) x y = List.zipWith (· || ·) y x := by
  induction x generalizing y with
  | nil => simp
  | cons a x ih => cases y with
    | nil => rfl
    | cons b y => simp [ih y, Bool.or_comm]

theorem zipWith_or_assoc (x y z : List Bool) :
    List.zipWith (· || ·) (List.zipWith (· || ·) x y) z = List.zipWith (· || ·) x (List.zipWith (· || ·) y z) := by
  induction x generalizing y z with
  | nil => simp
  | cons a x ih => cases y with
    | nil => simp
    | cons b y => cases z with
      | nil => simp
      | cons c z => simp [ih, Bool.or_assoc]

theorem zipWith_or_self (x : List Bool) : List.zipWith (· || ·) x x = x := by
  induction x with
  | nil => rfl
  | cons a x ih => simp

/-- C36: merging is commutative, associative and idempotent. -/
theorem C36_algebra (a b c ab bc : Masks) (ha : Masks.Full a) (hb : Masks.Full b) (hc : Masks.Full c)
    (hab : mergeInto a b = .ok ab) (hbc : mergeInto b c = .ok bc) :
    mergeInto b a = .ok ab ∧ mergeInto ab c = mergeInto a bc ∧ mergeInto a a = .ok a ∧ mergeInto ab b = .ok ab := by
  obtain ⟨r, h1, h2, -⟩ := C36_merge a b ha hb
  obtain ⟨r', h1', h2', -⟩ := C36_merge b c hb hc
  rw [hab] at h1
  rw [hbc] at h1'
  injection h1 with h1
  injection h1' with h1'
  subst h1 h1'
  rw [mergeInto_full a b ha hb] at hab
  rw [mergeInto_full b c hb hc] at hbc
  injection hab with hab
  injection hbc with hbc
  refine ⟨?_, ?_, ?_, ?_⟩
  · rw [mergeInto_full b a hb ha, ← hab, zipWith_or_comm b.dead, zipWith_or_comm b.low, zipWith_or_comm b.badHv]
  · rw [mergeInto_full ab c h2 hc, mergeInto_full a bc ha h2', ← hab, ← hbc]
    simp only [zipWith_or_assoc]
  · rw [mergeInto_full a a ha ha]
    simp only [zipWith_or_self]
  · rw [mergeInto_full ab b h2 hb, ← hab]
    simp only [zipWith_or_assoc, zipWith_or_self]

/-- C36: merging never clears a flag. -/
theorem C36_never_clears (a b r : Masks) (ha : Masks.Full a) (hb : Masks.Full b) (h : mergeInto a b = .ok r) (i : Nat) :
    (a.dead[i]? = some true → r.dead[i]? = some true) ∧ (a.low[i]? = some true → r.low[i]? = some true) ∧
    (a.badHv[i]? = some true → r.badHv[i]? = some true) := by
  obtain ⟨r', h1, _, h2, h3, h4⟩ := C36_merge a b ha hb
  rw [h] at h1
  injection h1 with h1
  subst h1
  have bound : ∀ (l : List Bool), l[i]? = some true → i < l.length := fun l hl => (List.getElem?_eq_some_iff.1 hl).1
  refine ⟨fun hd => ?_, fun hd => ?_, fun hd => ?_⟩
  · rw [h2 i (by rw [← ha.1]; exact bound _ hd), hd]; rfl
  · rw [h3 i (by rw [← ha.2.1]; exact bound _ hd), hd]; rfl
  · rw [h4 i (by rw [← ha.2.2]; exact bound _ hd), hd]; rfl

/-- C36: `all_mask` flags a pixel exactly when it is dead, or low, or its superpixel has bad high voltage. -/
theorem C36_all_mask (m : Masks) (h : Masks.Full m) : ∃ a, allMask m = .ok a ∧ a.length = 2048 ∧ ∀ i < 2048,
    (a[i]? = some true ↔ m.dead[i]? = some true ∨ m.low[i]? = some true ∨ m.badHv[i / 4]? = some true) := by
  obtain ⟨h1, h2, h3⟩ := h
  refine ⟨List.zipWith (· || ·) (List.zipWith (· || ·) m.dead m.low) (repeatEach 4 m.badHv), ?_, ?_, fun i hi => ?_⟩
  · simp [allMask, h1, h2, repeatEach_length, h3]
  · simp [h1, h2, repeatEach_length, h3]
  · rw [getElem?_zipWith_or _ _ (by simp [h1, h2, repeatEach_length, h3]) i (by simp [h1, h2, hi]),
      getElem?_zipWith_or _ _ (by omega) i (by omega), repeatEach_getElem? 4 (by omega),
      List.getElem?_eq_getElem (show i < m.dead.length by omega), List.getElem?_eq_getElem (show i < m.low.length by omega),
      List.getElem?_eq_getElem (show i / 4 < m.badHv.length by omega)]
    simp [or_assoc]

/-- sizes of arrays that numpy combines: equal, or one of them is a single element -/
def Combine (k l : Nat) : Prop := k = l ∨ k = 1 ∨ l = 1

instance (k l : Nat) : Decidable (Combine k l) := by unfold Combine; infer_instance

theorem logicalOr_ok (a b : List Bool) (h : Combine a.length b.length) : ∃ r, logicalOr a b = .ok r := by
  unfold logicalOr
  split
  · exact ⟨_, rfl⟩
  · rename_i hne
    rcases h with h | h | h
    · exact absurd h hne
    · obtain ⟨x, rfl⟩ := List.length_eq_one_iff.1 h
      exact ⟨_, rfl⟩
    · obtain ⟨y, rfl⟩ := List.length_eq_one_iff.1 h
      cases a with
      | nil => exact ⟨_, rfl⟩
      | cons x a => cases a <;> exact ⟨_, rfl⟩

theorem logicalOr_error (a b : List Bool) (h : ¬ Combine a.length b.length) : logicalOr a b = .error .valueError := by
  unfold logicalOr
  rw [if_neg fun h' => h (.inl h')]
  split
  · exact absurd (.inr (.inl rfl)) h
  · exact absurd (.inr (.inr rfl)) h
  · rfl

theorem anyOfFour_ok (a : List Bool) (h : a.length = 2048) : ∃ b, anyOfFour a = .ok b ∧ b.length = 512 :=
  ⟨_, by unfold anyOfFour; rw [if_neg (by simpa using h)], by simp⟩

/-- C36: masks can be merged with a file exactly if numpy can combine the sizes, else it is a `ValueError`; masks whose sizes do not fit together have no
`all_mask`: `ValueError`. -/
theorem C36_sizes (m : Masks) (f : MaskFile) (hf : f.badHv.length = 2048) :
    (Combine m.dead.length f.dead.length ∧ Combine m.low.length f.low.length ∧ Combine m.badHv.length 512 → ∃ r, loadFrame m f true = .ok r) ∧
    (¬ (Combine m.dead.length f.dead.length ∧ Combine m.low.length f.low.length ∧ Combine m.badHv.length 512) → loadFrame m f true = .error .valueError) ∧
    ((m.dead.length ≠ m.low.length ∨ m.dead.length ≠ 4 * m.badHv.length) → allMask m = .error .valueError) := by
  obtain ⟨b, hb, hl⟩ := anyOfFour_ok f.badHv hf
  refine ⟨?_, ?_, ?_⟩
  · rintro ⟨h1, h2, h3⟩
    obtain ⟨d, hd⟩ := logicalOr_ok _ _ h1
    obtain ⟨l, hlo⟩ := logicalOr_ok _ _ h2
    obtain ⟨v, hv⟩ := logicalOr_ok m.badHv b (by rw [hl]; exact h3)
    exact ⟨⟨d, l, v⟩, by simp [loadFrame, loadState, hb, mergeMasks, hd, hlo, hv]⟩
  · intro h
    by_cases h1 : Combine m.dead.length f.dead.length
    · obtain ⟨d, hd⟩ := logicalOr_ok _ _ h1
      by_cases h2 : Combine m.low.length f.low.length
      · obtain ⟨l, hlo⟩ := logicalOr_ok _ _ h2
        have h3 : ¬ Combine m.badHv.length b.length := by rw [hl]; tauto
        simp [loadFrame, loadState, hb, mergeMasks, hd, hlo, logicalOr_error _ _ h3]
      · simp [loadFrame, loadState, hb, mergeMasks, hd, logicalOr_error _ _ h2]
    · simp [loadFrame, loadState, hb, mergeMasks, logicalOr_error _ _ h1]
  · intro h
    unfold allMask
    rw [if_neg]
    rw [repeatEach_length]
    omega

/-- masks of 4 pixels and a file of 2048 -/
example : (⟨[true, false, false, false], [false, false, true, false], [false]⟩ : Masks).dead.length ≠ (List.replicate 2048 false).length := by
  rw [List.length_replicate]; decide

/-- masks of a full camera, not all equal -/
example : Masks.Full ⟨(List.range 2048).map (· == 7), (List.range 2048).map (· % 3 == 0), (List.range 512).map (· == 4)⟩ :=
  ⟨by simp, by simp, by simp⟩

/-! ## C150: the masks after a failing load -/

theorem logicalOr_same (a b : List Bool) (h : a.length = b.length) : logicalOr a b = .ok a ↔ ∀ i : Nat, b[i]? = some true → a[i]? = some true := by
  unfold logicalOr
  rw [if_pos h]
  simp only [Except.ok.injEq]
  induction a generalizing b with
  | nil =>
    cases b with
    | nil => simp
    | cons y b => simp at h
  | cons x a ih =>
    cases b with
    | nil => simp at h
    | cons y b =>
      simp only [List.length_cons, Nat.add_right_cancel_iff] at h
      simp only [List.zipWith_cons_cons, List.cons.injEq, ih b h]
      constructor
      · rintro ⟨h1, h2⟩ i hi
        cases i with
        | zero => simp only [List.getElem?_cons_zero, Option.some.injEq] at hi ⊢; rw [hi] at h1; simpa using h1.symm
        | succ i => exact h2 i (by simpa using hi)
      · intro h1
        refine ⟨?_, fun i hi => by simpa using h1 (i + 1) (by simpa using hi)⟩
        have := h1 0
        simp only [List.getElem?_cons_zero, Option.some.injEq] at this
        cases x <;> cases y <;> simp_all

/-- merging a column of 2048 flags leaves the mask as it is exactly if it is a mask of 2048 flags that has all flags of the column -/
def NothingNew (mask column : List Bool) : Prop := mask.length = 2048 ∧ ∀ i : Nat, column[i]? = some true → mask[i]? = some true

theorem logicalOr_nothingNew (a b d : List Bool) (hb : b.length = 2048) (h : logicalOr a b = .ok d) : d = a ↔ NothingNew a b := by
  constructor
  · rintro rfl
    have hl : d.length = b.length := by
      by_contra hne
      unfold logicalOr at h
      rw [if_neg hne] at h
      split at h
      · injection h with h
        have := congrArg List.length h
        simp at this hne
        omega
      · simp at hb
      · cases h
    exact ⟨by omega, (logicalOr_same d b hl).1 h⟩
  · rintro ⟨h1, h2⟩
    have := (logicalOr_same a b (by omega)).2 h2
    rw [this] at h
    injection h with h
    exact h.symm

/-- C150: a file that cannot be loaded, because it does not have 2048 rows, leaves the masks as they were. -/
theorem C150_unreadable (m : Masks) (f : MaskFile) (merge : Bool) (h : f.badHv.length ≠ 2048) : loadState m f merge = (m, some .valueError) := by
  simp [loadState, anyOfFour, h]

/-- C150: loading without merging replaces the masks or raises and leaves them. -/
theorem C150_replace (m : Masks) (f : MaskFile) : (loadState m f false).2 ≠ none → (loadState m f false).1 = m := by
  unfold loadState
  cases anyOfFour f.badHv <;> simp

/-- C150 is false of merging: a merge that fails at the low pixels has already changed the dead ones. -/
theorem C150_false : ∃ (m : Masks) (f : MaskFile), f.dead.length = 2048 ∧ f.low.length = 2048 ∧ f.badHv.length = 2048 ∧
    (loadState m f true).2 = some .valueError ∧ (loadState m f true).1 ≠ m := by
  have r : ∀ (n : Nat) (x : Bool), (List.replicate n x).length = n := fun _ _ => List.length_replicate
  refine ⟨⟨List.replicate 2048 false, [false, true], List.replicate 512 false⟩,
    ⟨List.range 2048, List.replicate 2048 true, List.replicate 2048 false, List.replicate 2048 false⟩, r _ _, r _ _, r _ _, ?_⟩
  obtain ⟨b, hb, hl⟩ := anyOfFour_ok (List.replicate 2048 false) (r _ _)
  obtain ⟨d, h1⟩ := logicalOr_ok (List.replicate 2048 false) (List.replicate 2048 true) (.inl (by rw [r, r]))
  have h2 : logicalOr [false, true] (List.replicate 2048 false) = .error .valueError :=
    logicalOr_error _ _ (by rw [r]; unfold Combine; decide)
  simp only [loadState, hb, mergeMasks, h1, h2, if_true, ne_eq, true_and]
  intro h
  have hd : d = List.replicate 2048 false := congrArg Masks.dead h
  have := ((logicalOr_nothingNew _ _ _ (r _ _) h1).1 hd).2 0
  rw [List.getElem?_replicate, List.getElem?_replicate, if_pos (by omega), if_pos (by omega)] at this
  simpa using this rfl

/-- C150, exactly: a merge of a file of 2048 rows that raises leaves the masks as they were if and only if it fails at the dead pixels, or the dead pixels of
the file were all known and it fails at the low pixels, or the dead and low pixels of the file were all known. (The full claim would drop the right-hand
side.) -/
theorem C150_exactly_partial (m : Masks) (f : MaskFile) (h1 : f.dead.length = 2048) (h2 : f.low.length = 2048) (h3 : f.badHv.length = 2048)
    (he : (loadState m f true).2 ≠ none) :
    (loadState m f true).2 = some .valueError ∧
    ((loadState m f true).1 = m ↔ ¬ Combine m.dead.length 2048 ∨ NothingNew m.dead f.dead ∧ (¬ Combine m.low.length 2048 ∨ NothingNew m.low f.low)) := by
  obtain ⟨b, hb, hl⟩ := anyOfFour_ok f.badHv h3
  simp only [loadState, hb, mergeMasks, if_true] at he ⊢
  by_cases c1 : Combine m.dead.length 2048
  · obtain ⟨d, hd⟩ := logicalOr_ok m.dead f.dead (by rw [h1]; exact c1)
    have e1 := logicalOr_nothingNew _ _ _ h1 hd
    simp only [hd] at he ⊢
    by_cases c2 : Combine m.low.length 2048
    · obtain ⟨l, hlo⟩ := logicalOr_ok m.low f.low (by rw [h2]; exact c2)
      have e2 := logicalOr_nothingNew _ _ _ h2 hlo
      simp only [hlo] at he ⊢
      cases hv : logicalOr m.badHv b with
      | ok v => rw [hv] at he; simp at he
      | error e =>
        have : e = .valueError := by
          by_cases c3 : Combine m.badHv.length b.length
          · obtain ⟨r, hr⟩ := logicalOr_ok _ _ c3
            rw [hr] at hv; cases hv
          · rw [logicalOr_error _ _ c3] at hv; cases hv; rfl
        refine ⟨by rw [this], ?_⟩
        simp only [c1, c2, not_true_eq_false, false_or, ← e1, ← e2]
        constructor
        · intro h; exact ⟨congrArg Masks.dead h, congrArg Masks.low h⟩
        · rintro ⟨rfl, rfl⟩; rfl
    · rw [logicalOr_error m.low f.low (by rw [h2]; exact c2)]
      refine ⟨rfl, ?_⟩
      simp only [c1, c2, not_true_eq_false, not_false_eq_true, false_or, true_or, and_true, ← e1]
      constructor
      · intro h; exact congrArg Masks.dead h
      · rintro rfl; rfl
  · rw [logicalOr_error m.dead f.dead (by rw [h1]; exact c1)]
    simp [c1]

/-- the hypotheses are met: masks with a wrong number of low pixels -/
example : (loadState ⟨List.replicate 2048 true, [false, true], List.replicate 512 false⟩
    ⟨List.range 2048, List.replicate 2048 true, List.replicate 2048 false, List.replicate 2048 false⟩ true).1 =
      ⟨List.replicate 2048 true, [false, true], List.replicate 512 false⟩ := by
  have r : ∀ (n : Nat) (x : Bool), (List.replicate n x).length = n := fun _ _ => List.length_replicate
  have c : ¬ Combine [false, true].length 2048 := by decide
  have h2 : logicalOr [false, true] (List.replicate 2048 false) = .error .valueError := logicalOr_error _ _ (by rw [r]; exact c)
  obtain ⟨b, hb, hl⟩ := anyOfFour_ok (List.replicate 2048 false) (r _ _)
  obtain ⟨d, h1⟩ := logicalOr_ok (List.replicate 2048 true) (List.replicate 2048 true) (.inl rfl)
  refine (C150_exactly_partial _ _ (r _ _) (r _ _) (r _ _) ?_).2.2 (.inr ⟨⟨r _ _, fun i hi => hi⟩, .inl c⟩)
  simp only [loadState, hb, mergeMasks, h1, h2, if_true, ne_eq, reduceCtorEq, not_false_eq_true]

/-! ## C37: index conversion -/

theorem expandIndices_eq (n : Nat) (list : List Int) :
    expandIndices n list = list.flatMap fun s => (List.range n).map fun (k : Nat) => s * n + (k : Int) := by
  unfold expandIndices
  have aux : ∀ (list : List Int) (o : Nat), o % n = 0 →
      ((repeatEach n list).zipIdx o).map (fun (x : Int × Nat) => x.1 * n + ((x.2 % n : Nat) : Int)) =
        list.flatMap fun s => (List.range n).map fun (k : Nat) => s * n + (k : Int) := by
    intro list
    induction list with
    | nil => intro o _; simp [repeatEach]
    | cons s list ih =>
      intro o ho
      have e : repeatEach n (s :: list) = List.replicate n s ++ repeatEach n list := by simp [repeatEach]
      rw [e, List.zipIdx_append, List.map_append, List.flatMap_cons, ih (o + (List.replicate n s).length) (by simp [ho])]
      congr 1
      refine List.ext_getElem (by simp) fun i h1 h2 => ?_
      have hi : i < n := by simpa using h2
      simp only [List.getElem_map, List.getElem_zipIdx, List.getElem_replicate, List.getElem_range]
      rw [Nat.add_mod, ho, Nat.zero_add, Nat.mod_mod, Nat.mod_eq_of_lt hi]
  exact aux list 0 (by simp)

/-- C37: the pixels of each requested superpixel (module), in the order of the request, ascending within each. -/
theorem C37_order (list : List Int) :
    superpixelsToPixels list = list.flatMap (fun s => [4 * s, 4 * s + 1, 4 * s + 2, 4 * s + 3]) ∧
    modulesToPixels list = list.flatMap (fun m => (List.range 64).map fun (k : Nat) => 64 * m + (k : Int)) := by
  unfold superpixelsToPixels modulesToPixels
  rw [expandIndices_eq 4, expandIndices_eq 64]
  constructor
  · congr 1
    funext s
    simp [show List.range 4 = [0, 1, 2, 3] from rfl, mul_comm]
  · congr 1
    funext s
    refine List.map_congr_left fun k _ => ?_
    push_cast
    rw [mul_comm]

theorem mem_expandIndices (n : Nat) (hn : 0 < n) (list : List Int) (p : Int) : p ∈ expandIndices n list ↔ p / (n : Int) ∈ list := by
  rw [expandIndices_eq n]
  simp only [List.mem_flatMap, List.mem_map, List.mem_range]
  constructor
  · rintro ⟨s, hs, k, hk, rfl⟩
    rw [show s * (n : Int) + (k : Int) = (k : Int) + s * (n : Int) by omega, Int.add_mul_ediv_right _ _ (by omega),
      Int.ediv_eq_zero_of_lt (by omega) (by omega)]
    simpa using hs
  · intro h
    refine ⟨p / n, h, (p % n).toNat, ?_, ?_⟩
    · have := Int.emod_lt_of_pos p (show (0 : Int) < n by omega)
      have := Int.emod_nonneg p (show (n : Int) ≠ 0 by omega)
      omega
    · have := Int.emod_nonneg p (show (n : Int) ≠ 0 by omega)
      rw [Int.toNat_of_nonneg this, mul_comm]
      exact Int.mul_ediv_add_emod p n

/-- C37: exactly the pixels whose superpixel (module) is requested; no pixel twice unless requested twice. -/
theorem C37_exactly (list : List Int) :
    (∀ p, p ∈ superpixelsToPixels list ↔ p / 4 ∈ list) ∧ (∀ p, p ∈ modulesToPixels list ↔ p / 64 ∈ list) ∧
    (superpixelsToPixels list).length = 4 * list.length ∧ (modulesToPixels list).length = 64 * list.length := by
  refine ⟨mem_expandIndices 4 (by omega) list, mem_expandIndices 64 (by omega) list, ?_, ?_⟩
  · simp [superpixelsToPixels, expandIndices, repeatEach_length, mul_comm]
  · simp [modulesToPixels, expandIndices, repeatEach_length, mul_comm]

example : superpixelsToPixels [3, 1] = [12, 13, 14, 15, 4, 5, 6, 7] := by decide +kernel

end Verif.Props
