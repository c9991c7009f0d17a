import Verif.Model.Runlist
import Verif.Lemmas.Replace
import Verif.Lemmas.Dl1

/-! # Format strings and paths of run lists -/

namespace Verif.Lemmas

open Verif.Py Verif.Model

/-- no braces in the text -/
def NoBrace (s : List Char) : Prop := ∀ c ∈ s, c ≠ '{' ∧ c ≠ '}'

/-- the file name pattern with the parts `a` and `b` around the number -/
def pattern (a b : List Char) : List Char := a ++ ('{' :: ':' :: '0' :: '5' :: 'd' :: '}' :: b)

theorem fieldEnd_cons (d : Nat) (c : Char) (cs : List Char) : fieldEnd d (c :: cs) =
    if c = '}' then (match d with | 0 => some ([], cs) | d + 1 => (fieldEnd d cs).map fun r => (c :: r.1, r.2))
    else (fieldEnd (if c = '{' then d + 1 else d) cs).map fun r => (c :: r.1, r.2) := by
  cases d <;> rfl

theorem fieldEnd_plain (s : List Char) (hs : NoBrace s) (d : Nat) (rest : List Char) :
    fieldEnd d (s ++ rest) = (fieldEnd d rest).map fun r => (s ++ r.1, r.2) := by
  induction s with
  | nil => rw [List.nil_append]; cases fieldEnd d rest <;> rfl
  | cons c s ih =>
    have hc := hs c (by simp)
    rw [List.cons_append, fieldEnd_cons, if_neg hc.2, if_neg hc.1, ih fun x hx => hs x (by simp [hx])]
    cases fieldEnd d rest <;> simp

theorem fieldEnd_none (s : List Char) (hs : NoBrace s) (d : Nat) : fieldEnd d s = none := by
  have := fieldEnd_plain s hs d []
  rw [List.append_nil] at this
  rw [this]
  rfl

theorem fieldEnd_pattern (a b : List Char) (ha : NoBrace a) (hb : NoBrace b) (d : Nat) : fieldEnd d (pattern a b) = none := by
  unfold pattern
  rw [fieldEnd_plain a ha]
  simp [fieldEnd, fieldEnd_none b hb]

theorem fieldEnd_dir (a b : List Char) (ha : NoBrace a) (hb : NoBrace b) (s : List Char) (d : Nat) :
    fieldEnd d (s ++ pattern a b) = none ∨ ∃ content rest, fieldEnd d (s ++ pattern a b) = some (content, rest ++ pattern a b) ∧ s = content ++ '}' :: rest := by
  induction s generalizing d with
  | nil => left; exact fieldEnd_pattern a b ha hb d
  | cons c s ih =>
    rw [List.cons_append, fieldEnd_cons]
    by_cases hc : c = '}'
    · rw [if_pos hc]
      cases d with
      | zero => right; exact ⟨[], s, rfl, by simp [hc]⟩
      | succ d =>
        rcases ih d with h | ⟨content, rest, h, e⟩
        · left; simp [h]
        · right
          refine ⟨c :: content, rest, by simp [h], by rw [e, List.cons_append]⟩
    · rw [if_neg hc]
      rcases ih (if c = '{' then d + 1 else d) with h | ⟨content, rest, h, e⟩
      · left; simp [h]
      · right
        exact ⟨c :: content, rest, by simp [h], by rw [e, List.cons_append]⟩

variable (render : List Char → Nat → Except Err (List Char)) (n : Nat)

theorem pyFormat_plain (s : List Char) (hs : NoBrace s) (fuel : Nat) (num : Numbering) (rest : List Char) :
    pyFormat render n (s.length + fuel) num (s ++ rest) = (pyFormat render n fuel num rest).map fun t => s ++ t := by
  induction s with
  | nil => rw [List.length_nil, Nat.zero_add, List.nil_append]; cases pyFormat render n fuel num rest <;> rfl
  | cons c s ih =>
    have hc := hs c (by simp)
    rw [List.cons_append, show (c :: s).length + fuel = (s.length + fuel) + 1 by simp; omega, pyFormat, if_neg hc.1, if_neg hc.2,
      ih fun x hx => hs x (by simp [hx])]
    cases pyFormat render n fuel num rest <;> rfl

theorem pyFormat_nil (fuel : Nat) (num : Numbering) : pyFormat render n fuel num [] = .ok [] := by
  cases fuel <;> rfl

theorem formatField_number (num : Numbering) : formatField render n num [':', '0', '5', 'd'] =
    match num with
    | .manual => .error .valueError
    | .auto => .error .indexError
    | .fresh => (render [':', '0', '5', 'd'] n).map fun t => (t, .auto) := by
  cases num <;> (unfold formatField; simp)

theorem pyFormat_pattern (a b : List Char) (ha : NoBrace a) (hb : NoBrace b) (fuel : Nat) (num : Numbering) (hf : (pattern a b).length ≤ fuel) :
    pyFormat render n fuel num (pattern a b) =
    match num with
    | .manual => .error .valueError
    | .auto => .error .indexError
    | .fresh => (render [':', '0', '5', 'd'] n).map fun t => a ++ (t ++ b) := by
  have hlen : (pattern a b).length = a.length + (b.length + 6) := by unfold pattern; simp
  obtain ⟨k, rfl⟩ : ∃ k, fuel = a.length + ((b.length + k) + 1) := ⟨fuel - a.length - b.length - 1, by omega⟩
  unfold pattern
  rw [pyFormat_plain render n a ha, pyFormat]
  have hfe : fieldEnd 0 (':' :: '0' :: '5' :: 'd' :: '}' :: b) = some ([':', '0', '5', 'd'], b) := by simp [fieldEnd]
  have hb' : ∀ num', pyFormat render n (b.length + k) num' b = .ok b := by
    intro num'
    have := pyFormat_plain render n b hb k num' []
    rw [List.append_nil, pyFormat_nil] at this
    rw [this]
    simp [Except.map]
  rw [if_pos rfl, if_neg (by simp), hfe]
  simp only
  rw [formatField_number]
  cases num with
  | manual => rfl
  | auto => rfl
  | fresh =>
    cases hr : render [':', '0', '5', 'd'] n with
    | error e => rfl
    | ok t => simp only [Except.map, hb']

theorem formatField_numbering (num num' : Numbering) (content t : List Char) (h : formatField render n num content = .ok (t, num')) : num' ≠ .fresh := by
  unfold formatField at h
  simp only at h
  split_ifs at h
  · cases num with
    | fresh =>
      simp only at h
      cases hr : render content n with
      | error e => rw [hr] at h; cases h
      | ok u =>
        rw [hr] at h
        simp only [Except.map, Except.ok.injEq, Prod.mk.injEq] at h
        rw [← h.2]; decide
    | auto => cases h
    | manual => cases h
  · cases hr : render (content.drop (content.takeWhile fun c => c ≠ ':' && c ≠ '!' && c ≠ '.' && c ≠ '[').length) n with
    | error e => rw [hr] at h; cases h
    | ok u =>
      rw [hr] at h
      simp only [Except.map, Except.ok.injEq, Prod.mk.injEq] at h
      rw [← h.2]; decide

theorem head_pattern (a b : List Char) (ha : NoBrace a) (hne : a ≠ []) : (pattern a b).head? ≠ some '{' ∧ (pattern a b).head? ≠ some '}' := by
  cases a with
  | nil => exact absurd rfl hne
  | cons c a =>
    have := ha c (by simp)
    unfold pattern
    simp only [List.cons_append, List.head?_cons, ne_eq, Option.some.injEq]
    exact this

/-- after a field of the directory the number of the run cannot be inserted any more -/
theorem pyFormat_used (a b : List Char) (ha : NoBrace a) (hb : NoBrace b) (hne : a ≠ []) (fuel : Nat) (s : List Char) (num : Numbering) (hnum : num ≠ .fresh)
    (hf : (s ++ pattern a b).length ≤ fuel) : ∃ e, pyFormat render n fuel num (s ++ pattern a b) = .error e := by
  induction fuel generalizing s num with
  | zero => unfold pattern at hf; simp at hf
  | succ fuel ih =>
    cases s with
    | nil =>
      rw [List.nil_append, pyFormat_pattern render n a b ha hb _ num (by simpa using hf)]
      cases num with
      | fresh => exact absurd rfl hnum
      | auto => exact ⟨_, rfl⟩
      | manual => exact ⟨_, rfl⟩
    | cons c s =>
      rw [List.cons_append, List.length_cons] at hf
      rw [List.cons_append, pyFormat]
      by_cases h1 : c = '{'
      · rw [if_pos h1]
        by_cases h2 : (s ++ pattern a b).head? = some '{'
        · rw [if_pos h2]
          cases s with
          | nil => exact absurd h2 (head_pattern a b ha hne).1
          | cons c' s =>
            rw [List.cons_append, List.tail_cons]
            obtain ⟨e, he⟩ := ih s num hnum (by rw [List.cons_append, List.length_cons] at hf; omega)
            exact ⟨e, by rw [he]; rfl⟩
        · rw [if_neg h2]
          rcases fieldEnd_dir a b ha hb s 0 with h | ⟨content, rest, h, e⟩
          · rw [h]; exact ⟨_, rfl⟩
          · rw [h]
            simp only
            cases hff : formatField render n num content with
            | error e => exact ⟨_, rfl⟩
            | ok r =>
              obtain ⟨t, num'⟩ := r
              simp only
              have hlen := congrArg List.length e
              obtain ⟨e', he'⟩ := ih rest num' (formatField_numbering render n num num' content t hff) (by simp at hlen hf ⊢; omega)
              exact ⟨e', by rw [he']; rfl⟩
      · rw [if_neg h1]
        by_cases h2 : c = '}'
        · rw [if_pos h2]
          by_cases h3 : (s ++ pattern a b).head? = some '}'
          · rw [if_pos h3]
            cases s with
            | nil => exact absurd h3 (head_pattern a b ha hne).2
            | cons c' s =>
              rw [List.cons_append, List.tail_cons]
              obtain ⟨e, he⟩ := ih s num hnum (by rw [List.cons_append, List.length_cons] at hf; omega)
              exact ⟨e, by rw [he]; rfl⟩
          · rw [if_neg h3]; exact ⟨_, rfl⟩
        · rw [if_neg h2]
          obtain ⟨e, he⟩ := ih s num hnum (by omega)
          exact ⟨e, by rw [he]; rfl⟩

/-- a text that could be formatted is as long as directory and file name only without braces in the directory -/
theorem pyFormat_length (a b : List Char) (ha : NoBrace a) (hb : NoBrace b) (hne : a ≠ []) (t : List Char) (ht : render [':', '0', '5', 'd'] n = .ok t)
    (fuel : Nat) (s r : List Char) (hf : (s ++ pattern a b).length ≤ fuel) (h : pyFormat render n fuel .fresh (s ++ pattern a b) = .ok r) :
    r.length ≤ s.length + (a ++ (t ++ b)).length ∧ (r.length = s.length + (a ++ (t ++ b)).length → NoBrace s) := by
  induction fuel generalizing s r with
  | zero => unfold pattern at hf; simp at hf
  | succ fuel ih =>
    cases s with
    | nil =>
      rw [List.nil_append, pyFormat_pattern render n a b ha hb _ _ (by simpa using hf), ht] at h
      simp only [Except.map, Except.ok.injEq] at h
      subst h
      exact ⟨by simp, fun _ c hc => by simp at hc⟩
    | cons c s =>
      rw [List.cons_append, List.length_cons] at hf
      rw [List.cons_append, pyFormat] at h
      by_cases h1 : c = '{'
      · rw [if_pos h1] at h
        by_cases h2 : (s ++ pattern a b).head? = some '{'
        · rw [if_pos h2] at h
          cases s with
          | nil => exact absurd h2 (head_pattern a b ha hne).1
          | cons c' s =>
            rw [List.cons_append, List.tail_cons] at h
            cases hr : pyFormat render n fuel .fresh (s ++ pattern a b) with
            | error e => rw [hr] at h; cases h
            | ok r' =>
              rw [hr] at h
              simp only [Except.map, Except.ok.injEq] at h
              have := (ih s r' (by rw [List.cons_append, List.length_cons] at hf; omega) hr).1
              subst h
              refine ⟨by simp only [List.length_cons]; omega, fun he => ?_⟩
              simp only [List.length_cons] at he
              omega
        · rw [if_neg h2] at h
          rcases fieldEnd_dir a b ha hb s 0 with h' | ⟨content, rest, h', e⟩
          · rw [h'] at h; cases h
          · rw [h'] at h
            simp only at h
            cases hff : formatField render n .fresh content with
            | error e => rw [hff] at h; cases h
            | ok x =>
              obtain ⟨u, num'⟩ := x
              rw [hff] at h
              simp only at h
              have hlen := congrArg List.length e
              obtain ⟨e', he'⟩ := pyFormat_used render n a b ha hb hne fuel rest num' (formatField_numbering render n _ num' content u hff) (by simp at hlen hf ⊢; omega)
              rw [he'] at h
              cases h
      · rw [if_neg h1] at h
        by_cases h2 : c = '}'
        · rw [if_pos h2] at h
          by_cases h3 : (s ++ pattern a b).head? = some '}'
          · rw [if_pos h3] at h
            cases s with
            | nil => exact absurd h3 (head_pattern a b ha hne).2
            | cons c' s =>
              rw [List.cons_append, List.tail_cons] at h
              cases hr : pyFormat render n fuel .fresh (s ++ pattern a b) with
              | error e => rw [hr] at h; cases h
              | ok r' =>
                rw [hr] at h
                simp only [Except.map, Except.ok.injEq] at h
                have := (ih s r' (by rw [List.cons_append, List.length_cons] at hf; omega) hr).1
                subst h
                refine ⟨by simp only [List.length_cons]; omega, fun he => ?_⟩
                simp only [List.length_cons] at he
                omega
          · rw [if_neg h3] at h; cases h
        · rw [if_neg h2] at h
          cases hr : pyFormat render n fuel .fresh (s ++ pattern a b) with
          | error e => rw [hr] at h; cases h
          | ok r' =>
            rw [hr] at h
            simp only [Except.map, Except.ok.injEq] at h
            obtain ⟨i1, i2⟩ := ih s r' (by omega) hr
            subst h
            refine ⟨by simp only [List.length_cons]; omega, fun he x hx => ?_⟩
            simp only [List.length_cons] at he
            rcases List.mem_cons.1 hx with rfl | hx
            · exact ⟨h1, h2⟩
            · exact i2 (by omega) x hx

/-- without braces in the directory the run number is inserted into the file name -/
theorem pyFormat_dir (a b : List Char) (ha : NoBrace a) (hb : NoBrace b) (t : List Char) (ht : render [':', '0', '5', 'd'] n = .ok t) (s : List Char) (hs : NoBrace s) :
    pyFormat render n (s ++ pattern a b).length .fresh (s ++ pattern a b) = .ok (s ++ (a ++ (t ++ b))) := by
  rw [List.length_append, pyFormat_plain render n s hs, pyFormat_pattern render n a b ha hb _ _ (Nat.le_refl _), ht]
  rfl

/-! ### Paths -/

theorem dropWhile_none (l : List Char) (rest : List Char) (hl : '/' ∉ l) : (l ++ rest).dropWhile (· ≠ '/') = rest.dropWhile (· ≠ '/') := by
  rw [List.dropWhile_append_of_pos]
  rintro x hx
  have : x ≠ '/' := by rintro rfl; exact hl hx
  simpa using this

theorem dropWhile_slashes (k : Nat) (d : List Char) (hd : d.head? ≠ some '/') : (List.replicate k '/' ++ d).dropWhile (· = '/') = d := by
  rw [List.dropWhile_append_of_pos]
  · cases d with
    | nil => rfl
    | cons c d =>
      rw [List.dropWhile_cons, if_neg]
      simpa using hd
  · intro x hx
    rw [List.mem_replicate] at hx
    simp [hx.2]

/-- only slashes before the name -/
theorem dirname_slashes (k : Nat) (base : List Char) (hb : '/' ∉ base) : posixDirname (List.replicate k '/' ++ base) = List.replicate k '/' := by
  have h1 : (List.replicate k '/' ++ base).reverse.dropWhile (· ≠ '/') = List.replicate k '/' := by
    rw [List.reverse_append, List.reverse_replicate, dropWhile_none _ _ (by simpa using hb)]
    cases k with
    | zero => rfl
    | succ k => rw [List.replicate_succ, List.dropWhile_cons, if_neg (by simp)]
  unfold posixDirname
  simp only [h1, List.reverse_replicate]
  rw [if_pos]
  simp

/-- a directory that does not end with a slash, some slashes, a name -/
theorem dirname_split (d base : List Char) (k : Nat) (hb : '/' ∉ base) (hd : d.getLast? ≠ some '/') (hne : d ≠ []) :
    posixDirname (d ++ List.replicate (k + 1) '/' ++ base) = d := by
  have h1 : (d ++ List.replicate (k + 1) '/' ++ base).reverse.dropWhile (· ≠ '/') = List.replicate (k + 1) '/' ++ d.reverse := by
    rw [List.reverse_append, dropWhile_none _ _ (by simpa using hb), List.reverse_append, List.reverse_replicate, List.replicate_succ, List.cons_append,
      List.dropWhile_cons, if_neg (by simp)]
  unfold posixDirname
  simp only [h1, List.reverse_reverse]
  rw [dropWhile_slashes _ _ (by rw [List.head?_reverse]; exact hd), List.reverse_reverse, if_neg]
  intro hall
  rw [List.all_eq_true] at hall
  have := hall (d.getLast hne) (by simp)
  apply hd
  rw [List.getLast?_eq_some_getLast hne]
  simpa using this

/-- the directory of a path with the slash after it: some slashes, or a text that does not end with a slash and one slash -/
def DirectoryOf (path dir : List Char) : Prop :=
  ∃ (d base : List Char) (k : Nat), '/' ∉ base ∧ path = d ++ List.replicate k '/' ++ base ∧ d.getLast? ≠ some '/' ∧
    ((d = [] ∧ dir = List.replicate k '/') ∨ (d ≠ [] ∧ 1 ≤ k ∧ dir = d ++ ['/']))

theorem join_dirname (path dir name : List Char) (h : DirectoryOf path dir) (hn : name.head? ≠ some '/') : posixJoin (posixDirname path) name = dir ++ name := by
  obtain ⟨d, base, k, hb, rfl, hd, ⟨rfl, rfl⟩ | ⟨hne, hk, rfl⟩⟩ := h
  · rw [List.nil_append, dirname_slashes k base hb]
    unfold posixJoin
    rw [if_neg hn, if_pos]
    cases k with
    | zero => left; rfl
    | succ k => right; rw [List.getLast?_replicate]; rfl
  · obtain ⟨k, rfl⟩ : ∃ j, k = j + 1 := ⟨k - 1, by omega⟩
    rw [dirname_split d base k hb hd hne]
    unfold posixJoin
    rw [if_neg hn, if_neg (by push Not; exact ⟨hne, hd⟩)]
    simp

end Verif.Lemmas
