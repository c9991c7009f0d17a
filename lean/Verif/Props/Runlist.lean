import Verif.Model.Runlist
import Verif.Lemmas.Runlist
import Verif.Props.Files
import Verif.Props.Dl1
import Verif.Py.DictLemmas

/-! # C103–C105: run lists and the extraction of several files -/

namespace Verif.Props

open Verif.Py Verif.Model Verif.Spec Verif.Lemmas

/-- how Python writes a number with the format specification `05d` -/
def RendersNumbers (render : List Char → Nat → Except Err (List Char)) : Prop := ∀ n, render [':', '0', '5', 'd'] n = .ok (decimalPad 5 n)

/-- the files of a run in a directory (given with its slash) -/
def r1File (dir : List Char) (n : Nat) : List Char := dir ++ (['R', 'u', 'n'] ++ (decimalPad 5 n ++ "_r1.tio".toList))
def dl1File (dir : List Char) (n : Nat) : List Char := dir ++ (['R', 'u', 'n'] ++ (decimalPad 5 n ++ "_dl1.h5".toList))

/-! ### C103 -/

/-- every path has a directory -/
theorem C103_directory (path : List Char) : ∃ dir, DirectoryOf path dir := by
  have hsplit : ∀ s : List Char, ∃ d k, s = d ++ List.replicate k '/' ∧ d.getLast? ≠ some '/' := by
    intro s
    induction s using List.reverseRecOn with
    | nil => exact ⟨[], 0, rfl, by simp⟩
    | append_singleton s c ih =>
      by_cases hc : c = '/'
      · obtain ⟨d, k, e, hd⟩ := ih
        exact ⟨d, k + 1, by rw [e, hc, List.replicate_succ', List.append_assoc], hd⟩
      · exact ⟨s ++ [c], 0, by simp, by simpa using hc⟩
  have hbase : ∃ s base : List Char, path = s ++ base ∧ '/' ∉ base ∧ (s = [] ∨ s.getLast? = some '/') := by
    induction path with
    | nil => exact ⟨[], [], rfl, by simp, Or.inl rfl⟩
    | cons c p ih =>
      obtain ⟨s, base, e, hb, hs⟩ := ih
      rcases hs with rfl | hs
      · by_cases hc : c = '/'
        · exact ⟨['/'], base, by rw [e, hc]; rfl, hb, Or.inr rfl⟩
        · refine ⟨[], c :: base, by rw [e]; rfl, ?_, Or.inl rfl⟩
          intro h
          rcases List.mem_cons.1 h with h | h
          · exact hc h.symm
          · exact hb h
      · refine ⟨c :: s, base, by rw [e]; rfl, hb, Or.inr ?_⟩
        cases s with
        | nil => cases hs
        | cons x s => rw [List.getLast?_cons_cons]; exact hs
  obtain ⟨s, base, e, hb, hs⟩ := hbase
  obtain ⟨d, k, e', hd⟩ := hsplit s
  by_cases hne : d = []
  · exact ⟨List.replicate k '/', d, base, k, hb, by rw [e, e'], hd, Or.inl ⟨hne, rfl⟩⟩
  · refine ⟨d ++ ['/'], d, base, k, hb, by rw [e, e'], hd, Or.inr ⟨hne, ?_, rfl⟩⟩
    by_contra hk
    have hk0 : k = 0 := by omega
    subst hk0
    rw [List.replicate_zero, List.append_nil] at e'
    subst e'
    rcases hs with rfl | hs
    · exact hne rfl
    · exact hd hs

theorem r1Name_pattern : r1Name = pattern ['R', 'u', 'n'] "_r1.tio".toList := by decide
theorem dl1Name_pattern : dl1Name = pattern ['R', 'u', 'n'] "_dl1.h5".toList := by decide

theorem noBrace_run : NoBrace ['R', 'u', 'n'] := by unfold NoBrace; decide
theorem noBrace_r1 : NoBrace "_r1.tio".toList := by unfold NoBrace; decide
theorem noBrace_dl1 : NoBrace "_dl1.h5".toList := by unfold NoBrace; decide

theorem runlistPaths_ok (render : List Char → Nat → Except Err (List Char)) (hr : RendersNumbers render) (path dir b : List Char) (hdir : DirectoryOf path dir)
    (hd : NoBrace dir) (hb : NoBrace b) (runs : List Nat) :
    runlistPaths render (pattern ['R', 'u', 'n'] b) path runs = .ok (runs.map fun n => dir ++ (['R', 'u', 'n'] ++ (decimalPad 5 n ++ b))) := by
  unfold runlistPaths
  simp only
  rw [join_dirname path dir _ hdir (by simp [pattern])]
  exact mapM_ok _ _ _ fun n _ => pyFormat_dir render n _ b noBrace_run hb _ (hr n) dir hd

/-- C103, what holds: if the directory of the run list contains no braces, the column `path` holds, row by row, the file of the run in the directory of the
run list. (The full claim would not restrict the directory.) -/
theorem C103_partial (render : List Char → Nat → Except Err (List Char)) (hr : RendersNumbers render) (path dir : List Char) (hdir : DirectoryOf path dir)
    (hd : NoBrace dir) (runs : List Nat) :
    runlistPaths render r1Name path runs = .ok (runs.map (r1File dir)) ∧ runlistPaths render dl1Name path runs = .ok (runs.map (dl1File dir)) := by
  rw [r1Name_pattern, dl1Name_pattern]
  exact ⟨runlistPaths_ok render hr path dir _ hdir hd noBrace_r1 runs, runlistPaths_ok render hr path dir _ hdir hd noBrace_dl1 runs⟩

theorem mapM_head {α β : Type} (f : α → Except Err β) (x : α) (xs : List α) (y : β) (ys : List β) (h : (x :: xs).mapM f = .ok (y :: ys)) : f x = .ok y := by
  rw [List.mapM_cons] at h
  cases hx : f x with
  | error e => rw [hx] at h; cases h
  | ok z =>
    rw [hx] at h
    simp only [bind, Except.bind, pure, Except.pure] at h
    cases hxs : xs.mapM f with
    | error e => rw [hxs] at h; cases h
    | ok zs =>
      rw [hxs] at h
      simp only [Except.ok.injEq, List.cons.injEq] at h
      rw [h.1]

/-- C103: with a brace anywhere in the directory, the paths of a run list with at least one run are never those of the runs. -/
theorem C103_braces (render : List Char → Nat → Except Err (List Char)) (hr : RendersNumbers render) (path dir : List Char) (hdir : DirectoryOf path dir)
    (runs : List Nat) (hne : runs ≠ []) :
    (runlistPaths render r1Name path runs = .ok (runs.map (r1File dir)) ↔ NoBrace dir) ∧
    (runlistPaths render dl1Name path runs = .ok (runs.map (dl1File dir)) ↔ NoBrace dir) := by
  have key : ∀ b, NoBrace b → runlistPaths render (pattern ['R', 'u', 'n'] b) path runs = .ok (runs.map fun n => dir ++ (['R', 'u', 'n'] ++ (decimalPad 5 n ++ b))) →
      NoBrace dir := by
    intro b hb h
    cases runs with
    | nil => exact absurd rfl hne
    | cons n runs =>
      unfold runlistPaths at h
      simp only at h
      rw [join_dirname path dir _ hdir (by simp [pattern])] at h
      have h1 := mapM_head _ _ _ _ _ h
      exact (pyFormat_length render n _ b noBrace_run hb (by decide) _ (hr n) _ dir _ (Nat.le_refl _) h1).2 (by rw [List.length_append])
  refine ⟨⟨fun h => ?_, fun h => (C103_partial render hr path dir hdir h runs).1⟩, ⟨fun h => ?_, fun h => (C103_partial render hr path dir hdir h runs).2⟩⟩
  · rw [r1Name_pattern] at h; exact key _ noBrace_r1 h
  · rw [dl1Name_pattern] at h; exact key _ noBrace_dl1 h

theorem mapM_first {α β : Type} (f : α → Except Err β) (xs : List α) (hne : xs ≠ []) (e : Err) (h : ∀ x, f x = .error e) : xs.mapM f = .error e := by
  cases xs with
  | nil => exact absurd rfl hne
  | cons x xs => rw [List.mapM_cons, h x]; rfl

theorem parseDec_zero (s : List Char) (h : ∀ c ∈ s, isDigitChar c = true) : parseDec s = 0 ↔ ∀ c ∈ s, c = '0' := by
  have key : ∀ (s : List Char) (a : Nat), (∀ c ∈ s, isDigitChar c = true) →
      (s.foldl (fun a c => 10 * a + digitVal c) a = 0 ↔ a = 0 ∧ ∀ c ∈ s, c = '0') := by
    intro s
    induction s with
    | nil => simp
    | cons c s ih =>
      intro a h
      rw [List.foldl_cons, ih _ fun x hx => h x (by simp [hx])]
      have hc := h c (by simp)
      have hz : digitVal c = 0 ↔ c = '0' := by
        unfold isDigitChar at hc
        unfold digitVal
        constructor
        · intro e
          simp only [Bool.and_eq_true, decide_eq_true_eq] at hc
          have e' : c.toNat = '0'.toNat := by
            have : '0'.toNat = 48 := by decide
            omega
          exact Char.toNat_inj.1 e'
        · rintro rfl; decide
      constructor
      · rintro ⟨h1, h2⟩
        refine ⟨by omega, fun x hx => ?_⟩
        rcases List.mem_cons.1 hx with rfl | hx
        · exact hz.1 (by omega)
        · exact h2 x hx
      · rintro ⟨h1, h2⟩
        exact ⟨by rw [h1, hz.2 (h2 c (by simp))], fun x hx => h2 x (by simp [hx])⟩
  unfold parseDec
  rw [key s 0 h]
  simp

/-- C103: what a field in braces in the name of the directory does: nothing but digits is an `IndexError` (a number other than 0, or no number) or a
`ValueError` (the number 0, which cannot be mixed with the unnumbered field of the file name), any other name is a `KeyError`. -/
theorem C103_fields (render : List Char → Nat → Except Err (List Char)) (hplain : ∀ n, ∃ t, render [] n = .ok t)
    (path p field q : List Char) (hdir : DirectoryOf path (p ++ ('{' :: (field ++ '}' :: q)))) (hp : NoBrace p) (hf : NoBrace field) (hq : NoBrace q)
    (hplainField : ∀ c ∈ field, c ≠ ':' ∧ c ≠ '!' ∧ c ≠ '.' ∧ c ≠ '[') (runs : List Nat) (hne : runs ≠ []) :
    ((field = [] ∨ ((∀ c ∈ field, isDigitChar c = true) ∧ ∃ c ∈ field, c ≠ '0')) → runlistPaths render r1Name path runs = .error .indexError) ∧
    ((field ≠ [] ∧ ∀ c ∈ field, c = '0') → runlistPaths render r1Name path runs = .error .valueError) ∧
    ((∃ c ∈ field, isDigitChar c = false) → runlistPaths render r1Name path runs = .error .keyError) := by
  have hfe : ∀ rest, fieldEnd 0 (field ++ '}' :: rest) = some (field, rest) := by
    intro rest
    rw [fieldEnd_plain field hf, fieldEnd_cons, if_pos rfl]
    simp
  have htw : (field.takeWhile fun c => c ≠ ':' && c ≠ '!' && c ≠ '.' && c ≠ '[') = field := by
    have := List.takeWhile_append_of_pos (p := fun c => c ≠ ':' && c ≠ '!' && c ≠ '.' && c ≠ '[') (l₁ := field) (l₂ := []) ?_
    · simpa using this
    intro c hc
    obtain ⟨a, b, d, e⟩ := hplainField c hc
    simp [a, b, d, e]
  have hany : (field.any fun c => c = '{') = false := by
    rw [List.any_eq_false]
    intro c hc
    simpa using (hf c hc).1
  have main : ∀ n, pyFormat render n ((p ++ ('{' :: (field ++ '}' :: q))) ++ pattern ['R', 'u', 'n'] "_r1.tio".toList).length .fresh
      ((p ++ ('{' :: (field ++ '}' :: q))) ++ pattern ['R', 'u', 'n'] "_r1.tio".toList) =
      match formatField render n .fresh field with
      | .error e => .error e
      | .ok (_, .manual) => .error .valueError
      | .ok (_, .auto) => .error .indexError
      | .ok (t, .fresh) => (render [':', '0', '5', 'd'] n).map fun u => p ++ (t ++ (q ++ (['R', 'u', 'n'] ++ (u ++ "_r1.tio".toList)))) := by
    intro n
    have hhead : (field ++ '}' :: (q ++ pattern ['R', 'u', 'n'] "_r1.tio".toList)).head? ≠ some '{' := by
      cases field with
      | nil => simp
      | cons c f => simpa using (hf c (by simp)).1
    have hl : ((p ++ ('{' :: (field ++ '}' :: q))) ++ pattern ['R', 'u', 'n'] "_r1.tio".toList) =
        p ++ ('{' :: (field ++ '}' :: (q ++ pattern ['R', 'u', 'n'] "_r1.tio".toList))) := by simp
    rw [hl, List.length_append, pyFormat_plain render n p hp, List.length_cons, pyFormat, if_pos rfl, if_neg hhead, hfe]
    simp only
    cases hff : formatField render n .fresh field with
    | error e => rfl
    | ok r =>
      obtain ⟨t, num⟩ := r
      simp only
      obtain ⟨k, hk⟩ : ∃ k, (field ++ '}' :: (q ++ pattern ['R', 'u', 'n'] "_r1.tio".toList)).length = q.length + k ∧
          (pattern ['R', 'u', 'n'] "_r1.tio".toList).length ≤ k :=
        ⟨field.length + 1 + (pattern ['R', 'u', 'n'] "_r1.tio".toList).length, by simp; omega, by omega⟩
      rw [hk.1, pyFormat_plain render n q hq, pyFormat_pattern render n _ _ noBrace_run noBrace_r1 _ _ hk.2]
      cases num with
      | manual => rfl
      | auto => rfl
      | fresh => cases render [':', '0', '5', 'd'] n <;> rfl
  have field_is : ∀ n, formatField render n .fresh field =
      if field = [] then (render [] n).map fun t => (t, Numbering.auto)
      else if ∀ c ∈ field, isDigitChar c = true then
        if ∀ c ∈ field, c = '0' then (render [] n).map fun t => (t, Numbering.manual) else .error .indexError
      else .error .keyError := by
    intro n
    unfold formatField
    simp only [htw, hany, Bool.false_eq_true, if_false, List.all_eq_true]
    by_cases h1 : field = []
    · rw [if_pos h1, if_pos h1, h1]
    · rw [if_neg h1, if_neg h1]
      by_cases h2 : ∀ c ∈ field, isDigitChar c = true
      · rw [if_pos h2, if_pos h2, if_neg (by decide)]
        by_cases h3 : ∀ c ∈ field, c = '0'
        · rw [if_pos ((parseDec_zero field h2).2 h3), if_pos h3, List.drop_length]
        · rw [if_neg fun h => h3 ((parseDec_zero field h2).1 h), if_neg h3]
      · rw [if_neg h2, if_neg h2]
  have hpaths : ∀ e, (∀ n, pyFormat render n ((p ++ ('{' :: (field ++ '}' :: q))) ++ pattern ['R', 'u', 'n'] "_r1.tio".toList).length .fresh
      ((p ++ ('{' :: (field ++ '}' :: q))) ++ pattern ['R', 'u', 'n'] "_r1.tio".toList) = .error e) → runlistPaths render r1Name path runs = .error e := by
    intro e h
    rw [r1Name_pattern]
    unfold runlistPaths
    simp only
    rw [join_dirname path _ _ hdir (by simp [pattern])]
    exact mapM_first _ _ hne _ h
  refine ⟨fun h => hpaths _ fun n => ?_, fun h => hpaths _ fun n => ?_, fun h => hpaths _ fun n => ?_⟩
  · rw [main, field_is]
    obtain ⟨t, ht⟩ := hplain n
    rcases h with h | ⟨h1, c, h2, h3⟩
    · rw [if_pos h, ht]; rfl
    · rw [if_neg (List.ne_nil_of_mem h2), if_pos h1, if_neg fun h => h3 (h c h2)]
  · rw [main, field_is]
    obtain ⟨t, ht⟩ := hplain n
    rw [if_neg h.1, if_pos (fun c hc => by rw [h.2 c hc]; decide), if_pos h.2, ht]; rfl
  · rw [main, field_is]
    obtain ⟨c, h1, h2⟩ := h
    rw [if_neg (List.ne_nil_of_mem h1), if_neg]
    intro h
    rw [h c h1] at h2
    cases h2

/-- C103: a single brace in the name of the directory makes the call fail with a `ValueError`. -/
theorem C103_single_brace (render : List Char → Nat → Except Err (List Char)) (path p q : List Char) (c : Char) (hc : c = '{' ∨ c = '}')
    (hdir : DirectoryOf path (p ++ (c :: q))) (hp : NoBrace p) (hq : NoBrace q) (runs : List Nat) (hne : runs ≠ []) :
    runlistPaths render r1Name path runs = .error .valueError := by
  have hhead : ∀ x, x = '{' ∨ x = '}' → (q ++ pattern ['R', 'u', 'n'] "_r1.tio".toList).head? ≠ some x := by
    intro x hx
    cases q with
    | nil => rcases hx with rfl | rfl <;> simp [pattern]
    | cons y q =>
      rcases hx with rfl | rfl
      · simpa using (hq y (by simp)).1
      · simpa using (hq y (by simp)).2
  rw [r1Name_pattern]
  unfold runlistPaths
  simp only
  rw [join_dirname path _ _ hdir (by simp [pattern])]
  refine mapM_first _ _ hne _ fun n => ?_
  have hl : (p ++ (c :: q)) ++ pattern ['R', 'u', 'n'] "_r1.tio".toList = p ++ (c :: (q ++ pattern ['R', 'u', 'n'] "_r1.tio".toList)) := by simp
  rw [hl, List.length_append, pyFormat_plain render n p hp, List.length_cons, pyFormat]
  rcases hc with rfl | rfl
  · rw [if_pos rfl, if_neg (hhead _ (Or.inl rfl)), fieldEnd_plain q hq, fieldEnd_pattern _ _ noBrace_run noBrace_r1]
    rfl
  · rw [if_neg (by decide), if_pos rfl, if_neg (hhead _ (Or.inr rfl))]
    rfl

/-- numbers with and without `05d`, no attributes, conversions or other specifications -/
def render05d (spec : List Char) (n : Nat) : Except Err (List Char) :=
  if spec = [':', '0', '5', 'd'] then .ok (decimalPad 5 n) else if spec = [] then .ok (decimal n) else .error .valueError

theorem render05d_ok : RendersNumbers render05d := fun _ => rfl

/-- C103 is false: a directory with braces in its name makes the call fail, or leads to another directory. -/
theorem C103_false : runlistPaths render05d r1Name "/data/{lab}/runlist.txt".toList [7] = .error .keyError ∧
    runlistPaths render05d r1Name "/data/{}/runlist.txt".toList [7] = .error .indexError ∧
    runlistPaths render05d r1Name "/data/{{lab}}/runlist.txt".toList [7] = .ok ["/data/{lab}/Run00007_r1.tio".toList] ∧
    DirectoryOf "/data/{{lab}}/runlist.txt".toList "/data/{{lab}}/".toList := by
  refine ⟨by decide +kernel, by decide +kernel, by decide +kernel, "/data/{{lab}}".toList, "runlist.txt".toList, 1, by decide, by decide, by decide, Or.inr ⟨by decide, by decide, by decide⟩⟩

/-- the cases for `C103_fields` and `C103_single_brace` -/
example : DirectoryOf "/data/{a1}/runlist.txt".toList ("/data/".toList ++ ('{' :: ("a1".toList ++ '}' :: "/".toList))) ∧
    runlistPaths render05d r1Name "/data/{a1}/runlist.txt".toList [7] = .error .keyError ∧
    runlistPaths render05d r1Name "/data/{00}/runlist.txt".toList [7] = .error .valueError ∧
    runlistPaths render05d r1Name "/data/{10}/runlist.txt".toList [7] = .error .indexError ∧
    runlistPaths render05d r1Name "/data/{lab/runlist.txt".toList [7] = .error .valueError := by
  refine ⟨⟨"/data/{a1}".toList, "runlist.txt".toList, 1, by decide, by decide, by decide, Or.inr ⟨by decide, by decide, by decide⟩⟩, by decide +kernel,
    by decide +kernel, by decide +kernel, by decide +kernel⟩

example : runlistPaths render05d r1Name "/data/lab//runlist.txt".toList [7, 123456] = .ok ["/data/lab/Run00007_r1.tio".toList, "/data/lab/Run123456_r1.tio".toList] := by
  decide +kernel
example : runlistPaths render05d dl1Name "runlist.txt".toList [42] = .ok ["Run00042_dl1.h5".toList] := by decide +kernel
example : DirectoryOf "/data/lab//runlist.txt".toList "/data/lab/".toList ∧ NoBrace "/data/lab/".toList := by
  refine ⟨⟨"/data/lab".toList, "runlist.txt".toList, 2, by decide, by decide, by decide, Or.inr ⟨by decide, by decide, by decide⟩⟩, by unfold NoBrace; decide⟩

theorem noDigit_behind_run (dir : List Char) : NoDigitBehind (dir ++ ['R', 'u', 'n']) := by
  intro c hc
  rw [List.getLast?_append] at hc
  have : c = 'n' := by simpa using hc.symm
  subst this; decide

/-- natural sorting of `Run<number><suffix>` in one directory is the order of the numbers -/
theorem runFiles_sorted (dir suffix : List Char) (hascii : ∀ c ∈ dir, c.toNat < 128) (hsuffix : ∀ c ∈ suffix, c.toNat < 128) (hs : suffix.head? = some '_') (runs : List Nat)
    (file : Nat → List Char) (hf : ∀ n, file n = dir ++ (['R', 'u', 'n'] ++ (decimalPad 5 n ++ suffix))) :
    ∃ r, sortFileList (runs.map file) = .ok r ∧ r.Perm (runs.map file) ∧
      ∀ (a b i j : Nat), a < b → r[i]? = some (file a) → r[j]? = some (file b) → i < j := by
  have hdig : ∀ c, isDigitChar c = true → c.toNat < 128 := by
    intro c hc
    unfold isDigitChar at hc
    simp at hc
    omega
  obtain ⟨⟨r, h1, h2⟩, _⟩ := C33_never_fails (runs.map file) (by
    intro x hx c hc
    obtain ⟨n, _, rfl⟩ := List.mem_map.1 hx
    rw [hf] at hc
    rcases List.mem_append.1 hc with hc | hc
    · exact hascii c hc
    rcases List.mem_append.1 hc with hc | hc
    · exact (by decide : ∀ c ∈ ['R', 'u', 'n'], c.toNat < 128) c hc
    rcases List.mem_append.1 hc with hc | hc
    · exact hdig c (decimalPad_digits 5 n c hc)
    · exact hsuffix c hc)
  refine ⟨r, h1, h2, fun a b i j hab hi hj => ?_⟩
  have hsh : ∀ n, file n = (dir ++ ['R', 'u', 'n']) ++ decimalPad 5 n ++ suffix := by
    intro n; rw [hf]; simp only [List.append_assoc]
  rw [hsh] at hi hj
  refine C33_run_number _ r h1 _ (decimalPad 5 a) (decimalPad 5 b) _ _ (noDigit_behind_run dir) ((digits_iff _).2 ⟨decimalPad_ne_nil 5 a, decimalPad_digits 5 a⟩)
    ((digits_iff _).2 ⟨decimalPad_ne_nil 5 b, decimalPad_digits 5 b⟩) ?_ ?_ (by simpa using hab) i j hi hj
  all_goals
    intro c hc
    rw [hs] at hc
    have : c = '_' := by simpa using hc.symm
    subst this; decide

/-- C103: different runs have different files, and natural sorting of the files is the order of the run numbers. -/
theorem C103_order (dir : List Char) (hascii : ∀ c ∈ dir, c.toNat < 128) (runs : List Nat) :
    (∀ a b, r1File dir a = r1File dir b → a = b) ∧ (∀ a b, dl1File dir a = dl1File dir b → a = b) ∧
    ∀ file, file = r1File dir ∨ file = dl1File dir → ∃ r, sortFileList (runs.map file) = .ok r ∧ r.Perm (runs.map file) ∧
      ∀ (a b i j : Nat), a < b → r[i]? = some (file a) → r[j]? = some (file b) → i < j := by
  have hinj : ∀ (t : List Char) (a b : Nat), dir ++ (['R', 'u', 'n'] ++ (decimalPad 5 a ++ t)) = dir ++ (['R', 'u', 'n'] ++ (decimalPad 5 b ++ t)) → a = b := by
    intro t a b h
    have h1 := List.append_cancel_left h
    have h2 := List.append_cancel_left h1
    exact decimalPad_injective (List.append_cancel_right h2)
  refine ⟨fun a b h => hinj _ a b h, fun a b h => hinj _ a b h, ?_⟩
  rintro file (rfl | rfl)
  · exact runFiles_sorted dir "_r1.tio".toList hascii (by decide) (by decide) runs _ fun _ => rfl
  · exact runFiles_sorted dir "_dl1.h5".toList hascii (by decide) (by decide) runs _ fun _ => rfl

example : r1File "/data/".toList 99999 = "/data/Run99999_r1.tio".toList ∧ r1File "/data/".toList 100000 = "/data/Run100000_r1.tio".toList := by decide +kernel

/-- C103: with open readers every row has the reader of its own file; otherwise no reader is opened. The first file that cannot be opened ends the call with
its error. -/
theorem C103_readers {R : Type} (render : List Char → Nat → Except Err (List Char)) (hr : RendersNumbers render) (opener : List Char → Except Err R) (path dir : List Char)
    (hdir : DirectoryOf path dir) (hd : NoBrace dir) (runs : List Nat) (name : List Char) (file : Nat → List Char)
    (hname : (name = r1Name ∧ file = r1File dir) ∨ (name = dl1Name ∧ file = dl1File dir)) :
    openRunlist render opener name path false runs = .ok (runs.map fun n => (n, file n, none)) ∧
    (∀ rd : Nat → R, (∀ n ∈ runs, opener (file n) = .ok (rd n)) →
      openRunlist render opener name path true runs = .ok (runs.map fun n => (n, file n, some (rd n)))) ∧
    ∀ pre n post e, runs = pre ++ n :: post → (∀ m ∈ pre, ∃ x, opener (file m) = .ok x) → opener (file n) = .error e →
      openRunlist render opener name path true runs = .error e := by
  have hp : runlistPaths render name path runs = .ok (runs.map file) := by
    have h := C103_partial render hr path dir hdir hd runs
    rcases hname with ⟨rfl, rfl⟩ | ⟨rfl, rfl⟩
    · exact h.1
    · exact h.2
  have hzip : ∀ (l : List Nat) (g : Nat → Option R), l.zip ((l.map file).zip (l.map g)) = l.map fun n => (n, file n, g n) := by
    intro l g
    induction l with
    | nil => rfl
    | cons a l ih => simp only [List.map_cons, List.zip_cons_cons, ih]
  refine ⟨?_, ?_, ?_⟩
  · unfold openRunlist
    rw [hp]
    simp only [Bool.false_eq_true, if_false, List.map_map]
    exact congrArg Except.ok (hzip runs fun _ => none)
  · intro rd hrd
    unfold openRunlist
    rw [hp]
    have : (runs.map file).mapM opener = .ok (runs.map rd) := by
      clear hp hname
      induction runs with
      | nil => rfl
      | cons a l ih =>
        rw [List.map_cons, List.mapM_cons, hrd a (by simp), ih fun n hn => hrd n (by simp [hn])]
        rfl
    simp only [if_true, this, List.map_map]
    exact congrArg Except.ok (hzip runs fun n => some (rd n))
  · rintro pre n post e rfl hpre hn
    unfold openRunlist
    rw [hp]
    have : ((pre ++ n :: post).map file).mapM opener = .error e := by
      clear hp hname
      induction pre with
      | nil => rw [List.nil_append, List.map_cons, List.mapM_cons, hn]; rfl
      | cons a l ih =>
        obtain ⟨x, hx⟩ := hpre a (by simp)
        rw [List.cons_append, List.map_cons, List.mapM_cons, hx, ]
        simp only [bind, Except.bind]
        rw [ih fun m hm => hpre m (by simp [hm])]
    simp only [if_true, this]

example : openRunlist render05d (fun p => if p = "/data/Run00003_r1.tio".toList then .error .fileNotFound else .ok p.length) r1Name "/data/list.txt".toList true [2, 3] = .error .fileNotFound := by
  decide +kernel

/-! ### C104 -/

theorem infix_split (x a b : List Char) (c : Char) (hx : c ∉ x) (h : x <:+: a ++ c :: b) : x <:+: a ∨ x <:+: b := by
  obtain ⟨p, q, e⟩ := h
  rw [List.append_assoc] at e
  rcases List.append_eq_append_iff.1 e with ⟨u, h1, h2⟩ | ⟨u, h1, h2⟩
  · -- p ++ u = a, u ++ c :: b = x ++ q
    rcases List.append_eq_append_iff.1 h2 with ⟨v, h3, h4⟩ | ⟨v, h3, h4⟩
    · cases v with
      | nil =>
        left
        rw [List.append_nil] at h3
        exact ⟨p, [], by rw [h1, h3]; simp⟩
      | cons d v =>
        left
        exact ⟨p, d :: v, by rw [h1, h3, List.append_assoc]⟩
    · cases v with
      | nil => left; exact ⟨p, [], by rw [h1, h3]; simp⟩
      | cons d v =>
        exfalso
        rw [List.cons_append, List.cons.injEq] at h4
        exact hx (by rw [h3, h4.1]; simp)
  · -- a ++ u = p, x ++ q = .. 
    cases u with
    | nil =>
      rw [List.nil_append] at h2
      cases x with
      | nil => left; exact List.nil_infix
      | cons d x =>
        exfalso
        rw [List.cons_append, List.cons.injEq] at h2
        exact hx (by rw [h2.1]; simp)
    | cons d u =>
      right
      rw [List.cons_append, List.cons.injEq] at h2
      exact ⟨u, q, by rw [h2.2, List.append_assoc]⟩

theorem infix_dir (x dir b : List Char) (hx : '/' ∉ x) (hdir : dir = [] ∨ dir.getLast? = some '/') (h : x <:+: dir ++ b) : x <:+: dir ∨ x <:+: b := by
  rcases hdir with rfl | hdir
  · right; exact h
  · obtain ⟨d, rfl⟩ : ∃ d, dir = d ++ ['/'] := by
      cases hd : dir using List.reverseRecOn with
      | nil => rw [hd] at hdir; cases hdir
      | append_singleton d c =>
        rw [hd] at hdir
        have : c = '/' := by simpa using hdir
        exact ⟨d, by rw [this]⟩
    rw [List.append_assoc, List.singleton_append] at h
    rcases infix_split x d b '/' hx h with h | h
    · left; exact h.trans (List.prefix_append _ _).isInfix
    · right; exact h

theorem not_infix_end (f : Char) (xs L : List Char) (hf : f ∉ L) : ¬ (f :: xs) <:+: L ++ (f :: xs).dropLast := by
  rintro ⟨p, q, e⟩
  have hlen : (f :: xs).dropLast.length < (f :: xs).length := by simp
  rw [List.append_assoc] at e
  rcases List.append_eq_append_iff.1 e with ⟨u, h1, h2⟩ | ⟨u, h1, h2⟩
  · cases u with
    | nil =>
      have := congrArg List.length h2
      rw [List.nil_append, List.length_append] at this
      omega
    | cons h t =>
      rw [List.cons_append, List.cons_append, List.cons.injEq] at h2
      exact hf (by rw [h1, h2.1]; simp)
  · have := congrArg List.length h2
    rw [List.length_append, List.length_append] at this
    omega

theorem noChar_run (f : Char) (hf : isDigitChar f = false) (hf' : f ∉ ['R', 'u', 'n']) (n : Nat) : f ∉ ['R', 'u', 'n'] ++ decimalPad 5 n := by
  intro h
  rcases List.mem_append.1 h with h | h
  · exact hf' h
  · rw [decimalPad_digits 5 n f h] at hf; cases hf

/-- C104, what holds: for a directory whose name contains neither `_r1` nor `.tio`, the automatic output path for the R1 file of a run is the path that the
DL1 run list has for the same run. (The full claim would not restrict the directory.) -/
theorem C104_partial (path dir : List Char) (hdir : DirectoryOf path dir) (h1 : ¬ "_r1".toList <:+: dir) (h2 : ¬ ".tio".toList <:+: dir) (n : Nat) :
    outputPath (String.ofList (r1File dir n)) false none = String.ofList (dl1File dir n) := by
  have hlast : dir = [] ∨ dir.getLast? = some '/' := by
    obtain ⟨d, base, k, _, _, _, ⟨_, rfl⟩ | ⟨_, _, rfl⟩⟩ := hdir
    · cases k with
      | zero => left; rfl
      | succ k => right; rw [List.getLast?_replicate]; rfl
    · right; simp
  have key : ∀ (old new : String) (L : List Char) (f : Char) (xs : List Char), old.toList = f :: xs → '/' ∉ f :: xs → ¬ f :: xs <:+: dir → f ∉ L →
      ∀ b : String, pyReplace (String.ofList (dir ++ L) ++ old ++ b) old new = String.ofList (dir ++ L) ++ new ++ pyReplace b old new := by
    intro old new L f xs ho hs hd hL b
    refine (C28_every_occurrence old new ?_).2 _ b ?_
    · rintro rfl; cases ho
    · rw [String.toList_ofList, ho, List.append_assoc]
      intro hi
      rcases infix_dir _ dir _ hs hlast hi with hi | hi
      · exact hd hi
      · exact not_infix_end f xs L hL hi
  have e1 : String.ofList (r1File dir n) = String.ofList (dir ++ (['R', 'u', 'n'] ++ decimalPad 5 n)) ++ "_r1" ++ ".tio" := by
    apply String.toList_inj.1
    simp only [String.toList_append, String.toList_ofList, r1File, List.append_assoc]
    rfl
  have hr : pyReplace ".tio" "_r1" "_dl1" = ".tio" := by decide +kernel
  have e2 : outputPath (String.ofList (r1File dir n)) false none = pyReplace (pyReplace (String.ofList (r1File dir n)) "_r1" "_dl1") ".tio" ".h5" := rfl
  rw [e2, e1, key "_r1" "_dl1" _ '_' ['r', '1'] (by decide) (by decide) h1 (noChar_run '_' (by decide) (by decide) n) ".tio", hr]
  have e3 : String.ofList (dir ++ (['R', 'u', 'n'] ++ decimalPad 5 n)) ++ "_dl1" ++ ".tio" =
      String.ofList (dir ++ ((['R', 'u', 'n'] ++ decimalPad 5 n) ++ "_dl1".toList)) ++ ".tio" ++ "" := by
    apply String.toList_inj.1
    simp only [String.toList_append, String.toList_ofList, List.append_assoc]
    simp
  rw [e3, key ".tio" ".h5" _ '.' ['t', 'i', 'o'] (by decide) (by decide) h2 (by
    intro h
    rcases List.mem_append.1 h with h | h
    · exact noChar_run '.' (by decide) (by decide) n h
    · revert h; decide) ""]
  have hr' : pyReplace "" ".tio" ".h5" = "" := by decide +kernel
  rw [hr']
  apply String.toList_inj.1
  simp only [String.toList_append, String.toList_ofList, dl1File, List.append_assoc]
  rfl

example : outputPath (String.ofList (r1File "/data/".toList 7)) false none = "/data/Run00007_dl1.h5" := by decide +kernel
example : ¬ "_r1".toList <:+: "/data/".toList ∧ ¬ ".tio".toList <:+: "/data/".toList := by decide +kernel

/-- C104: these are exactly the directories for which it holds. -/
theorem C104_exactly_partial (path dir : List Char) (hdir : DirectoryOf path dir) (n : Nat) :
    outputPath (String.ofList (r1File dir n)) false none = String.ofList (dl1File dir n) ↔ ¬ "_r1".toList <:+: dir ∧ ¬ ".tio".toList <:+: dir := by
  refine ⟨fun h => ?_, fun h => C104_partial path dir hdir h.1 h.2 n⟩
  have h' : replaceChars ['.', 't', 'i', 'o'] ['.', 'h', '5'] (replaceChars ['_', 'r', '1'] ['_', 'd', 'l', '1'] (r1File dir n).length (r1File dir n)).length
      (replaceChars ['_', 'r', '1'] ['_', 'd', 'l', '1'] (r1File dir n).length (r1File dir n)) = dl1File dir n := by
    have := congrArg String.toList h
    simpa [outputPath, pyReplace] using this
  have hsub : dir <:+: dl1File dir n := (List.prefix_append _ _).isInfix
  constructor
  · intro hi
    have h1 := List.IsInfix.trans hi hsub
    rw [← h'] at h1
    exact replaceChars_gone '_' ['r', '1'] ['d', 'l', '1'] (by decide) (by decide) (by rintro z ⟨q, hq⟩; simp at hq) _ _ (Nat.le_refl _)
      (replaceChars_infix '.' '_' ['t', 'i', 'o'] ['h', '5'] ['r', '1'] (by decide) (by decide) _ _ h1)
  · intro hi
    have h1 := List.IsInfix.trans hi hsub
    rw [← h'] at h1
    exact replaceChars_gone '.' ['t', 'i', 'o'] ['h', '5'] (by decide) (by decide) (by rintro z ⟨q, hq⟩; simp at hq) _ _ (Nat.le_refl _) h1

/-- C104 is false: in a directory with `_r1` in its name the DL1 file is written to another directory than the one where the run list looks for it. -/
theorem C104_false : DirectoryOf "/lab_r1/runlist.txt".toList "/lab_r1/".toList ∧
    outputPath (String.ofList (r1File "/lab_r1/".toList 7)) false none = "/lab_dl1/Run00007_dl1.h5" ∧
    runlistPaths render05d dl1Name "/lab_r1/runlist.txt".toList [7] = .ok ["/lab_r1/Run00007_dl1.h5".toList] :=
  ⟨⟨"/lab_r1".toList, "runlist.txt".toList, 1, by decide, by decide, by decide, Or.inr ⟨by decide, by decide, by decide⟩⟩, by decide +kernel, by decide +kernel⟩

/-! ### C105 -/

/-- C105, what holds: if every input exists and can be processed, the output paths of different positions in the list of inputs differ and none of them is an
input, then every output file is the one extracted from its input and all other files are as before. (The full claim would not restrict the output paths.) -/
theorem C105_partial {F : Type} (isMc : F → Bool) (extract : F → Except Err (F × Option Err)) (given : Option String) (fs : Dict String F) (ps : List String)
    (src ext : String → F) (hsrc : ∀ p ∈ ps, Dict.get? fs p = some (src p)) (hext : ∀ p ∈ ps, extract (src p) = .ok (ext p, none))
    (hout : (ps.map fun p => outputPath p (isMc (src p)) given).Nodup) (hin : ∀ p ∈ ps, ∀ q ∈ ps, outputPath p (isMc (src p)) given ≠ q) :
    ∃ fs', extractFiles isMc extract given fs ps = (fs', none) ∧
      (∀ p ∈ ps, Dict.get? fs' (outputPath p (isMc (src p)) given) = some (ext p)) ∧
      ∀ q, (∀ p ∈ ps, outputPath p (isMc (src p)) given ≠ q) → Dict.get? fs' q = Dict.get? fs q := by
  induction ps generalizing fs with
  | nil => exact ⟨fs, rfl, by simp, fun _ _ => rfl⟩
  | cons p ps ih =>
    rw [List.map_cons, List.nodup_cons] at hout
    obtain ⟨fs', h1, h2, h3⟩ := ih (Dict.set fs (outputPath p (isMc (src p)) given) (ext p))
      (fun q hq => by rw [Verif.Py.Dict.get?_set_ne _ _ (by first | exact (hin p (by simp) q (by simp [hq])).symm | exact hin p (by simp) q (by simp [hq]))]; exact hsrc q (by simp [hq]))
      (fun q hq => hext q (by simp [hq])) hout.2 (fun q hq r hr => hin q (by simp [hq]) r (by simp [hr]))
    refine ⟨fs', ?_, ?_, ?_⟩
    · rw [extractFiles, hsrc p (by simp)]
      simp only
      rw [hext p (by simp)]
      exact h1
    · intro q hq
      rcases List.mem_cons.1 hq with rfl | hq
      · rw [h3 _ fun r hr he => hout.1 (List.mem_map.2 ⟨r, hr, he⟩), Verif.Py.Dict.get?_set_self]
      · exact h2 q hq
    · intro q hq
      rw [h3 q fun r hr => hq r (by simp [hr]), Verif.Py.Dict.get?_set_ne _ _ (by first | exact (hq p (by simp)).symm | exact hq p (by simp))]

/-- C105, without a condition on different inputs having different outputs: if no output path is an input, the file left at an output path is the one of the
last input that has this output path, and all other files are as before. So an input keeps its output exactly if no later input has the same output path
(or gives the same content). -/
theorem C105_last_partial {F : Type} (isMc : F → Bool) (extract : F → Except Err (F × Option Err)) (given : Option String) (fs : Dict String F) (ps : List String)
    (src ext : String → F) (hsrc : ∀ p ∈ ps, Dict.get? fs p = some (src p)) (hext : ∀ p ∈ ps, extract (src p) = .ok (ext p, none))
    (hin : ∀ p ∈ ps, ∀ q ∈ ps, outputPath p (isMc (src p)) given ≠ q) :
    ∃ fs', extractFiles isMc extract given fs ps = (fs', none) ∧
      (∀ pre p post, ps = pre ++ p :: post → (∀ q ∈ post, outputPath q (isMc (src q)) given ≠ outputPath p (isMc (src p)) given) →
        Dict.get? fs' (outputPath p (isMc (src p)) given) = some (ext p)) ∧
      ∀ q, (∀ p ∈ ps, outputPath p (isMc (src p)) given ≠ q) → Dict.get? fs' q = Dict.get? fs q := by
  induction ps generalizing fs with
  | nil => exact ⟨fs, rfl, by simp, fun _ _ => rfl⟩
  | cons p ps ih =>
    obtain ⟨fs', h1, h2, h3⟩ := ih (Dict.set fs (outputPath p (isMc (src p)) given) (ext p))
      (fun q hq => by rw [Verif.Py.Dict.get?_set_ne _ _ (by first | exact (hin p (by simp) q (by simp [hq])).symm | exact hin p (by simp) q (by simp [hq]))]; exact hsrc q (by simp [hq]))
      (fun q hq => hext q (by simp [hq])) (fun q hq r hr => hin q (by simp [hq]) r (by simp [hr]))
    refine ⟨fs', ?_, ?_, ?_⟩
    · rw [extractFiles, hsrc p (by simp)]
      simp only
      rw [hext p (by simp)]
      exact h1
    · intro pre q post he hpost
      cases pre with
      | nil =>
        rw [List.nil_append, List.cons.injEq] at he
        obtain ⟨rfl, rfl⟩ := he
        rw [h3 _ hpost, Verif.Py.Dict.get?_set_self]
      | cons r pre =>
        rw [List.cons_append, List.cons.injEq] at he
        exact h2 pre q post he.2 hpost
    · intro q hq
      rw [h3 q fun r hr => hq r (by simp [hr]), Verif.Py.Dict.get?_set_ne _ _ (by first | exact hq p (by simp) | exact (hq p (by simp)).symm)]

/-- three inputs, the first and the last with the same output path -/
example : extractFiles (fun _ => false) (fun n => .ok (n + 100, none)) none [("/d/a_r1.tio", 1), ("/d/b_r1.tio", 2), ("/d/a_dl1.tio", 3)]
    ["/d/a_r1.tio", "/d/b_r1.tio", "/d/a_dl1.tio"] =
    ([("/d/a_r1.tio", 1), ("/d/b_r1.tio", 2), ("/d/a_dl1.tio", 3), ("/d/a_dl1.h5", 103), ("/d/b_dl1.h5", 102)], none) := by decide +kernel

/-- C105: with an explicit output path and several inputs, only the last one is left in the output. -/
theorem C105_explicit {F : Type} (isMc : F → Bool) (extract : F → Except Err (F × Option Err)) (out : String) (hne : out ≠ "") (fs : Dict String F) (ps : List String) (last : String)
    (src ext : String → F) (hsrc : ∀ p ∈ ps ++ [last], Dict.get? fs p = some (src p)) (hext : ∀ p ∈ ps ++ [last], extract (src p) = .ok (ext p, none))
    (hin : out ∉ ps ++ [last]) :
    ∃ fs', extractFiles isMc extract (some out) fs (ps ++ [last]) = (fs', none) ∧ Dict.get? fs' out = some (ext last) ∧ ∀ q, q ≠ out → Dict.get? fs' q = Dict.get? fs q := by
  induction ps generalizing fs with
  | nil =>
    refine ⟨Dict.set fs out (ext last), ?_, Verif.Py.Dict.get?_set_self _ _ _, fun q hq => Verif.Py.Dict.get?_set_ne _ _ (by first | exact hq | exact hq.symm)⟩
    rw [List.nil_append, extractFiles, hsrc last (by simp)]
    simp only
    rw [hext last (by simp)]
    simp only
    rw [C28_explicit last out _ hne, extractFiles]
  | cons p ps ih =>
    have hset : ∀ q, q ≠ out → Dict.get? (Dict.set fs out (ext p)) q = Dict.get? fs q := fun q hq => Verif.Py.Dict.get?_set_ne _ _ (by first | exact hq | exact hq.symm)
    obtain ⟨fs', h1, h2, h3⟩ := ih (Dict.set fs out (ext p))
      (fun q hq => by rw [hset q (by rintro rfl; exact hin (by rw [List.cons_append]; exact List.mem_cons_of_mem _ hq))]; exact hsrc q (by rw [List.cons_append]; exact List.mem_cons_of_mem _ hq))
      (fun q hq => hext q (by rw [List.cons_append]; exact List.mem_cons_of_mem _ hq)) (fun h => hin (by rw [List.cons_append]; exact List.mem_cons_of_mem _ h))
    refine ⟨fs', ?_, h2, fun q hq => by rw [h3 q hq, hset q hq]⟩
    rw [List.cons_append, extractFiles, hsrc p (by simp)]
    simp only
    rw [hext p (by simp)]
    simp only
    rw [C28_explicit p out _ hne]
    exact h1

/-- C105: the script stops at the first input that does not exist or cannot be processed; what was written for the inputs before it stays. -/
theorem C105_stops {F : Type} (isMc : F → Bool) (extract : F → Except Err (F × Option Err)) (given : Option String) (fs fs1 : Dict String F) (ps : List String) (p : String) (rest : List String)
    (h : extractFiles isMc extract given fs ps = (fs1, none)) :
    (Dict.get? fs1 p = none → extractFiles isMc extract given fs (ps ++ p :: rest) = (fs1, some .fileNotFound)) ∧
    (∀ f e, Dict.get? fs1 p = some f → extract f = .error e → extractFiles isMc extract given fs (ps ++ p :: rest) = (fs1, some e)) ∧
    ∀ f g e, Dict.get? fs1 p = some f → extract f = .ok (g, some e) →
      extractFiles isMc extract given fs (ps ++ p :: rest) = (Dict.set fs1 (outputPath p (isMc f) given) g, some e) := by
  induction ps generalizing fs with
  | nil =>
    rw [extractFiles] at h
    injection h with h _
    subst h
    refine ⟨fun h => ?_, fun f e h h' => ?_, fun f g e h h' => ?_⟩
    all_goals rw [List.nil_append, extractFiles, h]
    · simp only [h']
    · simp only [h']
  | cons q ps ih =>
    rw [extractFiles] at h
    cases hq : Dict.get? fs q with
    | none => rw [hq] at h; simp at h
    | some f =>
      rw [hq] at h
      simp only at h
      cases hf : extract f with
      | error e => rw [hf] at h; simp at h
      | ok r =>
        obtain ⟨g, e⟩ := r
        rw [hf] at h
        cases e with
        | some e => simp at h
        | none =>
          simp only at h
          have hstep : ∀ l, extractFiles isMc extract given fs (q :: l) = extractFiles isMc extract given (Dict.set fs (outputPath q (isMc f) given) g) l := by
            intro l
            rw [extractFiles, hq]
            simp only
            rw [hf]
          rw [List.cons_append, hstep]
          exact ih _ h

/-- files with numbers as content -/
def exFiles : Dict String Nat := [("/d/a_r1.tio", 1), ("/d/b_r1.tio", 2)]

/-- C105 is false: with an explicit output path nothing of the first input is left; and two inputs can have the same automatic output path. -/
theorem C105_false : extractFiles (fun _ => false) (fun n => .ok (n + 100, none)) (some "/d/out.h5") exFiles ["/d/a_r1.tio", "/d/b_r1.tio"] = (exFiles ++ [("/d/out.h5", 102)], none) ∧
    extractFiles (fun _ => false) (fun n => .ok (n + 100, none)) none [("/d/a_r1.tio", 1), ("/d/a_dl1.tio", 2)] ["/d/a_r1.tio", "/d/a_dl1.tio"] =
      ([("/d/a_r1.tio", 1), ("/d/a_dl1.tio", 2), ("/d/a_dl1.h5", 102)], none) := by decide +kernel

example : extractFiles (fun _ => false) (fun n => .ok (n + 100, none)) none exFiles ["/d/a_r1.tio", "/d/b_r1.tio"] =
    (exFiles ++ [("/d/a_dl1.h5", 101), ("/d/b_dl1.h5", 102)], none) := by decide +kernel
example : extractFiles (fun _ => false) (fun n => if n = 2 then .ok (0, some .ioError) else .ok (n + 100, none)) none exFiles ["/d/a_r1.tio", "/d/b_r1.tio", "/d/c_r1.tio"] =
    (exFiles ++ [("/d/a_dl1.h5", 101), ("/d/b_dl1.h5", 0)], some .ioError) := by decide +kernel

end Verif.Props
