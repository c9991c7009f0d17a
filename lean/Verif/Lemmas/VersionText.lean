import Verif.Model.VersionText
import Verif.Lemmas.Dl1Session

/-! # Version texts -/

namespace Verif.Lemmas

open Verif.Py Verif.Model RegularExpression

theorem mem_optionally (P : RegularExpression Char) (t : List Char) : t ∈ (optionally P).matches' ↔ t = [] ∨ t ∈ P.matches' := by
  unfold optionally
  rw [matches'_add, matches'_epsilon, Language.mem_add, Language.mem_one]

theorem mem_oneOf (cs t : List Char) : t ∈ (oneOf cs).matches' ↔ ∃ c ∈ cs, t = [c] := by
  unfold oneOf
  induction cs with
  | nil => simp [matches'_zero, Language.notMem_zero]
  | cons c cs ih =>
    rw [List.map_cons, List.foldr_cons, matches'_add, Language.mem_add, ih, matches'_char]
    have h : t ∈ ({[c]} : Language Char) ↔ t = [c] := Iff.rfl
    rw [h]
    simp

theorem digit_mem (c : Char) : isDigitChar c = true ↔ c ∈ digitChars := by
  constructor
  · intro h
    unfold isDigitChar at h
    simp only [Bool.and_eq_true, decide_eq_true_eq] at h
    rw [← Char.ofNat_toNat c]
    generalize c.toNat = k at h ⊢
    have : k = 48 ∨ k = 49 ∨ k = 50 ∨ k = 51 ∨ k = 52 ∨ k = 53 ∨ k = 54 ∨ k = 55 ∨ k = 56 ∨ k = 57 := by omega
    rcases this with rfl | rfl | rfl | rfl | rfl | rfl | rfl | rfl | rfl | rfl <;> decide
  · revert c
    decide

theorem mem_digits (t : List Char) : t ∈ digitsPattern.matches' ↔ t ≠ [] ∧ ∀ c ∈ t, isDigitChar c = true := by
  unfold digitsPattern repeated
  rw [matches'_mul, matches'_star, Language.mem_mul]
  constructor
  · rintro ⟨a, ha, b, hb, rfl⟩
    obtain ⟨c, hc, rfl⟩ := (mem_oneOf _ _).1 ha
    obtain ⟨L, rfl, hL⟩ := Language.mem_kstar.1 hb
    refine ⟨by simp, ?_⟩
    intro d hd
    simp only [List.cons_append, List.nil_append, List.mem_cons, List.mem_flatten] at hd
    rcases hd with rfl | ⟨x, hx, hd⟩
    · exact (digit_mem _).2 hc
    · obtain ⟨e, he, rfl⟩ := (mem_oneOf _ _).1 (hL x hx)
      rw [List.mem_singleton.1 hd]
      exact (digit_mem _).2 he
  · rintro ⟨hne, hd⟩
    cases t with
    | nil => exact absurd rfl hne
    | cons c t =>
      refine ⟨[c], (mem_oneOf _ _).2 ⟨c, (digit_mem _).1 (hd c (by simp)), rfl⟩, t, Language.mem_kstar.2 ⟨t.map fun c => [c], ?_, ?_⟩, rfl⟩
      · have key : ∀ u : List Char, u = (u.map fun c => [c]).flatten := by
          intro u
          induction u with
          | nil => rfl
          | cons d u ih => rw [List.map_cons, List.flatten_cons, ← ih]; rfl
        exact key t
      · intro x hx
        obtain ⟨d, hm, rfl⟩ := List.mem_map.1 hx
        exact (mem_oneOf _ _).2 ⟨d, (digit_mem _).1 (hd d (by simp [hm])), rfl⟩

theorem mem_decimal (n : Nat) : decimal n ∈ digitsPattern.matches' := (mem_digits _).2 ⟨decimal_ne_nil n, decimal_digits n⟩

theorem mem_release (n : Nat) (ns : List Nat) : (decimal n ++ ns.flatMap fun k => '.' :: decimal k) ∈ releasePattern.matches' := by
  unfold releasePattern
  rw [matches'_mul, matches'_star, Language.mem_mul]
  refine ⟨_, mem_decimal n, _, Language.mem_kstar.2 ⟨ns.map fun k => '.' :: decimal k, ?_, ?_⟩, rfl⟩
  · rw [List.flatMap_def]
  · intro x hx
    obtain ⟨k, -, rfl⟩ := List.mem_map.1 hx
    rw [matches'_mul, Language.mem_mul]
    exact ⟨['.'], by rw [matches'_char]; rfl, decimal k, mem_decimal k, rfl⟩

theorem mem_word (w : List Char) : w ∈ (word w).matches' := by
  unfold word
  induction w with
  | nil => rw [List.map_nil, List.foldr_nil, matches'_epsilon, Language.mem_one]
  | cons c w ih =>
    rw [List.map_cons, List.foldr_cons, matches'_mul, Language.mem_mul]
    exact ⟨[c], by rw [matches'_char]; rfl, w, ih, rfl⟩

theorem mem_words (words : List String) (w : String) (h : w ∈ words) : w.toList ∈ ((words.map fun w : String => word w.toList).foldr (· + ·) 0).matches' := by
  induction words with
  | nil => simp at h
  | cons v words ih =>
    rw [List.map_cons, List.foldr_cons, matches'_add, Language.mem_add]
    rcases List.mem_cons.1 h with rfl | h
    · exact Or.inl (mem_word _)
    · exact Or.inr (ih h)

theorem mem_tagged (words : List String) (w : String) (h : w ∈ words) (sep : List Char) (hs : sep ∈ separator.matches') (k : Nat) :
    sep ++ w.toList ++ decimal k ∈ (taggedPattern words).matches' := by
  unfold taggedPattern
  rw [matches'_mul, Language.mem_mul]
  refine ⟨sep ++ w.toList, ?_, decimal k, (mem_optionally _ _).2 (Or.inr (mem_decimal k)), rfl⟩
  rw [matches'_mul, Language.mem_mul]
  refine ⟨sep ++ w.toList, ?_, [], (mem_optionally _ _).2 (Or.inl rfl), by simp⟩
  rw [matches'_mul, Language.mem_mul]
  exact ⟨sep, hs, w.toList, mem_words words w h, rfl⟩

/-- one tag alone -/
theorem mem_suffix (t : List Char) (h : t ∈ (taggedPattern ["alpha", "a", "beta", "b", "preview", "pre", "c", "rc"]).matches' ∨ t ∈ (taggedPattern ["post", "rev", "r"]).matches' ∨
    t ∈ (taggedPattern ["dev"]).matches') : t ∈ suffixPattern.matches' := by
  have nil : ∀ P, [] ∈ (optionally P).matches' := fun P => (mem_optionally _ _).2 (Or.inl rfl)
  have some : ∀ P, t ∈ P.matches' → t ∈ (optionally P).matches' := fun P h => (mem_optionally _ _).2 (Or.inr h)
  unfold suffixPattern
  rw [matches'_mul, Language.mem_mul]
  rcases h with h | h | h
  · refine ⟨t, some _ h, [], ?_, by simp⟩
    rw [matches'_mul, Language.mem_mul]
    refine ⟨[], nil _, [], ?_, rfl⟩
    rw [matches'_mul, Language.mem_mul]
    exact ⟨[], nil _, [], nil _, rfl⟩
  · refine ⟨[], nil _, t, ?_, by simp⟩
    rw [matches'_mul, Language.mem_mul]
    refine ⟨t, some _ (by rw [matches'_add, Language.mem_add]; exact Or.inr h), [], ?_, by simp⟩
    rw [matches'_mul, Language.mem_mul]
    exact ⟨[], nil _, [], nil _, rfl⟩
  · refine ⟨[], nil _, t, ?_, by simp⟩
    rw [matches'_mul, Language.mem_mul]
    refine ⟨[], nil _, t, ?_, by simp⟩
    rw [matches'_mul, Language.mem_mul]
    exact ⟨t, some _ h, [], nil _, by simp⟩

/-- a post-release written as a number alone -/
theorem mem_suffix_number (k : Nat) : '-' :: decimal k ∈ suffixPattern.matches' := by
  have nil : ∀ P, [] ∈ (optionally P).matches' := fun P => (mem_optionally _ _).2 (Or.inl rfl)
  unfold suffixPattern
  rw [matches'_mul, Language.mem_mul]
  refine ⟨[], nil _, '-' :: decimal k, ?_, by simp⟩
  rw [matches'_mul, Language.mem_mul]
  refine ⟨'-' :: decimal k, (mem_optionally _ _).2 (Or.inr ?_), [], ?_, by simp⟩
  · rw [matches'_add, Language.mem_add]
    left
    rw [matches'_mul, Language.mem_mul]
    exact ⟨['-'], rfl, decimal k, mem_decimal k, rfl⟩
  · rw [matches'_mul, Language.mem_mul]
    exact ⟨[], nil _, [], nil _, rfl⟩

/-- a local version of one word -/
theorem mem_suffix_local (w : List Char) (hw : w ≠ []) (hc : ∀ c ∈ w, c ∈ "0123456789abcdefghijklmnopqrstuvwxyz".toList) : '+' :: w ∈ suffixPattern.matches' := by
  have nil : ∀ P, [] ∈ (optionally P).matches' := fun P => (mem_optionally _ _).2 (Or.inl rfl)
  have hchars : ∀ c ∈ "0123456789abcdefghijklmnopqrstuvwxyz".toList, c ∈ digitChars ++ "abcdefghijklmnopqrstuvwxyz".toList := by decide +kernel
  have hal : w ∈ alnumPattern.matches' := by
    unfold alnumPattern repeated
    rw [matches'_mul, matches'_star, Language.mem_mul]
    cases w with
    | nil => exact absurd rfl hw
    | cons c t =>
      refine ⟨[c], (mem_oneOf _ _).2 ⟨c, hchars c (hc c (by simp)), rfl⟩, t, Language.mem_kstar.2 ⟨t.map fun c => [c], ?_, ?_⟩, rfl⟩
      · have key : ∀ u : List Char, u = (u.map fun c => [c]).flatten := by
          intro u
          induction u with
          | nil => rfl
          | cons d u ih => rw [List.map_cons, List.flatten_cons, ← ih]; rfl
        exact key t
      · intro x hx
        obtain ⟨d, hm, rfl⟩ := List.mem_map.1 hx
        exact (mem_oneOf _ _).2 ⟨d, hchars d (hc d (by simp [hm])), rfl⟩
  unfold suffixPattern
  rw [matches'_mul, Language.mem_mul]
  refine ⟨[], nil _, '+' :: w, ?_, by simp⟩
  rw [matches'_mul, Language.mem_mul]
  refine ⟨[], nil _, '+' :: w, ?_, by simp⟩
  rw [matches'_mul, Language.mem_mul]
  refine ⟨[], nil _, '+' :: w, (mem_optionally _ _).2 (Or.inr ?_), by simp⟩
  rw [matches'_mul, Language.mem_mul]
  refine ⟨'+' :: w, ?_, [], ?_, by simp⟩
  · rw [matches'_mul, Language.mem_mul]
    exact ⟨['+'], rfl, w, hal, rfl⟩
  · rw [matches'_star]
    exact Language.mem_kstar.2 ⟨[], rfl, by simp⟩

theorem nil_suffix : [] ∈ suffixPattern.matches' := by
  rw [← rmatch_iff_matches']
  decide +kernel

/-- a text the pattern matches begins with a digit or with `v` -/
theorem version_first (c : Char) (t : List Char) (h : c :: t ∈ versionPattern.matches') : c = 'v' ∨ isDigitChar c = true := by
  unfold versionPattern at h
  rw [matches'_mul, Language.mem_mul] at h
  obtain ⟨a, ha, b, hb, hab⟩ := h
  rcases (mem_optionally _ _).1 ha with rfl | ha
  · right
    rw [List.nil_append] at hab
    subst hab
    rw [matches'_mul, Language.mem_mul] at hb
    obtain ⟨e, he, r, hr, her⟩ := hb
    have first : ∀ x y : List Char, x ∈ digitsPattern.matches' → x ++ y = c :: t → isDigitChar c = true := by
      intro x y hx hxy
      obtain ⟨h1, h2⟩ := (mem_digits x).1 hx
      cases x with
      | nil => exact absurd rfl h1
      | cons d x =>
        obtain ⟨rfl, -⟩ := List.cons.inj hxy
        exact h2 d (by simp)
    rcases (mem_optionally _ _).1 he with rfl | he
    · rw [List.nil_append] at her
      subst her
      rw [matches'_mul, Language.mem_mul] at hr
      obtain ⟨r1, h1, r2, h2, h12⟩ := hr
      unfold releasePattern at h1
      rw [matches'_mul, Language.mem_mul] at h1
      obtain ⟨d, hd, d', -, rfl⟩ := h1
      exact first d (d' ++ r2) hd (by rw [← List.append_assoc]; exact h12)
    · rw [matches'_mul, Language.mem_mul] at he
      obtain ⟨d, hd, d', -, rfl⟩ := he
      exact first d (d' ++ r) hd (by rw [← List.append_assoc]; exact her)
  · left
    rw [matches'_char] at ha
    obtain rfl : a = ['v'] := ha
    exact (List.cons.inj hab).1.symm

theorem version_nil : [] ∉ versionPattern.matches' := by
  rw [← rmatch_iff_matches']
  decide +kernel

theorem normalised_self (t : List Char) (h : ∀ c ∈ t, isSpaceChar c = false ∧ c.toLower = c) : normalised (String.ofList t) = t := by
  have drop : ∀ u : List Char, (∀ c ∈ u, isSpaceChar c = false) → u.dropWhile isSpaceChar = u := by
    intro u hu
    cases u with
    | nil => rfl
    | cons c u => rw [List.dropWhile_cons_of_neg (by rw [hu c (by simp)]; decide)]
  unfold normalised
  rw [String.toList_ofList, drop t fun c hc => (h c hc).1, drop _ fun c hc => (h c (by simpa using hc)).1, List.reverse_reverse]
  conv_rhs => rw [← List.map_id t]
  exact List.map_congr_left fun c hc => (h c hc).2

/-- spaces around a text make no difference -/
theorem normalised_spaces (a t b : List Char) (ha : ∀ c ∈ a, isSpaceChar c = true) (hb : ∀ c ∈ b, isSpaceChar c = true) (h : ∀ c ∈ t, isSpaceChar c = false) :
    normalised (String.ofList (a ++ t ++ b)) = t.map Char.toLower := by
  have drop : ∀ u : List Char, (∀ c ∈ u, isSpaceChar c = false) → u.dropWhile isSpaceChar = u := by
    intro u hu
    cases u with
    | nil => rfl
    | cons c u => rw [List.dropWhile_cons_of_neg (by rw [hu c (by simp)]; decide)]
  have pre : ∀ (a u : List Char), (∀ c ∈ a, isSpaceChar c = true) → (a ++ u).dropWhile isSpaceChar = u.dropWhile isSpaceChar := by
    intro a u ha
    induction a with
    | nil => rfl
    | cons c a ih =>
      rw [List.cons_append, List.dropWhile_cons_of_pos (ha c (by simp))]
      exact ih fun c hc => ha c (by simp [hc])
  unfold normalised
  rw [String.toList_ofList, List.append_assoc, pre a _ ha]
  cases t with
  | nil =>
    have : (b.dropWhile isSpaceChar) = [] := by
      have := pre b [] hb
      rwa [List.append_nil] at this
    rw [List.nil_append, this]
    rfl
  | cons c t =>
    rw [List.cons_append, List.dropWhile_cons_of_neg (by rw [h c (by simp)]; decide), ← List.cons_append, List.reverse_append,
      pre b.reverse _ (fun c hc => hb c (by simpa using hc)), drop _ (fun d hd => h d (List.mem_reverse.1 hd)), List.reverse_reverse]

theorem normalised_first (c : Char) (rest : List Char) (hc : isSpaceChar c = false) : ∃ t, normalised (String.ofList (c :: rest)) = c.toLower :: t := by
  unfold normalised
  rw [String.toList_ofList, List.dropWhile_cons_of_neg (by rw [hc]; decide), List.reverse_cons]
  have key : ∀ u : List Char, ∃ w, (u ++ [c]).dropWhile isSpaceChar = w ++ [c] := by
    intro u
    induction u with
    | nil => exact ⟨[], by rw [List.nil_append, List.dropWhile_cons_of_neg (by rw [hc]; decide)]⟩
    | cons d u ih =>
      by_cases hd : isSpaceChar d = true
      · rw [List.cons_append, List.dropWhile_cons_of_pos hd]; exact ih
      · rw [List.cons_append, List.dropWhile_cons_of_neg hd]; exact ⟨d :: u, rfl⟩
  obtain ⟨w, hw⟩ := key rest.reverse
  rw [hw]
  exact ⟨w.reverse.map Char.toLower, by simp⟩

theorem all_digits (ds : List Char) (h : ∀ d ∈ ds, isDigitChar d = true) : ds.takeWhile isDigitChar = ds ∧ ds.dropWhile isDigitChar = [] := by
  induction ds with
  | nil => exact ⟨rfl, rfl⟩
  | cons d ds ih =>
    obtain ⟨h1, h2⟩ := ih fun d hd => h d (by simp [hd])
    rw [List.takeWhile_cons_of_pos (h d (by simp)), List.dropWhile_cons_of_pos (h d (by simp)), h1, h2]
    exact ⟨rfl, rfl⟩

theorem releaseHead_decimal (n : Nat) (tail : List Char) (h : ∀ c ∈ tail.head?, isDigitChar c = false ∧ c ≠ '!') : releaseHead (decimal n ++ tail) = n := by
  have hv : ∀ t, decimal n ++ tail ≠ 'v' :: t := by
    intro t ht
    have hne := decimal_ne_nil n
    have hd := decimal_digits n
    cases hdec : decimal n with
    | nil => exact hne hdec
    | cons d ds =>
      rw [hdec] at ht hd
      obtain ⟨rfl, -⟩ := List.cons.inj ht
      exact absurd (hd 'v' (by simp)) (by decide)
  have hm : afterV (decimal n ++ tail) = decimal n ++ tail := by
    cases ht : decimal n ++ tail with
    | nil => rfl
    | cons c t =>
      exact if_neg (by rintro rfl; exact hv t ht)
  unfold releaseHead
  rw [hm]
  cases tail with
  | nil =>
    obtain ⟨h1, h2⟩ := all_digits (decimal n) (decimal_digits n)
    rw [List.append_nil, h2, h1]
    exact parseDec_decimal n
  | cons c tail =>
    obtain ⟨h1, h2⟩ := h c rfl
    obtain ⟨k1, k2⟩ := takeWhile_digits (decimal n) tail c (decimal_digits n) h1
    rw [k1, k2]
    simp only [if_neg h2]
    exact parseDec_decimal n

theorem lower_digit (c : Char) (h : isDigitChar c = true) : isSpaceChar c = false ∧ c.toLower = c := by
  rw [digit_mem] at h
  revert c
  decide

theorem releaseMajor_of (n : Nat) (ns : List Nat) (tag : List Char) (ht : tag ∈ suffixPattern.matches') (hl : ∀ c ∈ tag, isSpaceChar c = false ∧ c.toLower = c)
    (hh : ∀ c ∈ tag.head?, isDigitChar c = false ∧ c ≠ '!') : releaseMajor (String.ofList (decimal n ++ (ns.flatMap fun k => '.' :: decimal k) ++ tag)) = .ok n := by
  have hn : normalised (String.ofList (decimal n ++ (ns.flatMap fun k => '.' :: decimal k) ++ tag)) = decimal n ++ (ns.flatMap fun k => '.' :: decimal k) ++ tag := by
    refine normalised_self _ fun c hc => ?_
    rcases List.mem_append.1 hc with hc | hc
    · rcases List.mem_append.1 hc with hc | hc
      · exact lower_digit c (decimal_digits n c hc)
      · obtain ⟨k, -, hc⟩ := List.mem_flatMap.1 hc
        rcases List.mem_cons.1 hc with rfl | hc
        · decide
        · exact lower_digit c (decimal_digits k c hc)
    · exact hl c hc
  have hm : versionPattern.rmatch (decimal n ++ (ns.flatMap fun k => '.' :: decimal k) ++ tag) = true := by
    rw [rmatch_iff_matches']
    unfold versionPattern
    rw [matches'_mul, Language.mem_mul]
    refine ⟨[], (mem_optionally _ _).2 (Or.inl rfl), _, ?_, List.nil_append _⟩
    rw [matches'_mul, Language.mem_mul]
    refine ⟨[], (mem_optionally _ _).2 (Or.inl rfl), _, ?_, List.nil_append _⟩
    rw [matches'_mul, Language.mem_mul]
    exact ⟨_, mem_release n ns, tag, ht, rfl⟩
  unfold releaseMajor
  rw [hn, if_pos hm, List.append_assoc, releaseHead_decimal]
  intro c hc
  cases ns with
  | nil => exact hh c (by simpa using hc)
  | cons k ns =>
    simp at hc
    subst hc
    decide

theorem releaseMajor_invalid (c : Char) (rest : List Char) (h1 : isDigitChar c = false) (h2 : isSpaceChar c = false) (h3 : c ≠ 'v') (h4 : c ≠ 'V') :
    releaseMajor (String.ofList (c :: rest)) = .error .valueError := by
  obtain ⟨t, ht⟩ := normalised_first c rest h2
  unfold releaseMajor
  rw [ht, if_neg]
  rw [rmatch_iff_matches']
  intro hm
  have hup : c.toLower = c ∨ c ∈ "ABCDEFGHIJKLMNOPQRSTUVWXYZ".toList := by
    by_cases hr : c.val ≥ 'A'.val ∧ c.val ≤ 'Z'.val
    · right
      have g1 : 65 ≤ c.toNat := UInt32.le_iff_toNat_le.1 hr.1
      have g2 : c.toNat ≤ 90 := UInt32.le_iff_toNat_le.1 hr.2
      obtain ⟨j, hj, hj'⟩ : ∃ j < 26, c.toNat = 65 + j := ⟨c.toNat - 65, by omega, by omega⟩
      rw [← Char.ofNat_toNat c, hj']
      clear hj' g1 g2 hr hm ht h1 h2 h3 h4
      revert j
      decide
    · left
      unfold Char.toLower
      rw [dif_neg hr]
  have hno : ∀ d ∈ "ABCDEFGHIJKLMNOPQRSTUVWXYZ".toList, (d.toLower = 'v' ∨ isDigitChar d.toLower = true) → d = 'V' := by decide
  rcases hup with hup | hup
  · rw [hup] at hm
    rcases version_first _ _ hm with h | h
    · exact h3 h
    · rw [h1] at h; cases h
  · exact h4 (hno c hup (version_first _ _ hm))

end Verif.Lemmas
