import Verif.Model.Files
import Verif.Spec.Files
import Verif.Lemmas.Files

/-! # C33: natural file ordering -/

namespace Verif.Props

open Verif.Py Verif.Model Verif.Spec Verif.Lemmas

theorem ascii_key (n : List Char) (h : ∀ c ∈ n, c.toNat < 128) : ∃ k, naturalKeys n = .ok k := by
  refine splitRuns_key false [] n (by simp) (by simp) fun c hc => ?_
  have := h c (by simpa using hc)
  unfold isSuperscript
  simp only [Bool.or_eq_false_iff, beq_eq_false_iff_ne]
  omega

/-- C33: for ASCII names neither the keys nor any comparison of two of them can fail, and the sorting returns a permutation. -/
theorem C33_never_fails (names : List (List Char)) (h : ∀ n ∈ names, ∀ c ∈ n, c.toNat < 128) :
    (∃ r, sortFileList names = .ok r ∧ r.Perm names) ∧
    ∀ a ∈ names, ∀ b ∈ names, ∃ ka kb r, naturalKeys a = .ok ka ∧ naturalKeys b = .ok kb ∧ keyLt ka kb = .ok r := by
  refine ⟨⟨names.mergeSort nameLe, ?_, List.mergeSort_perm _ _⟩, fun a ha b hb => ?_⟩
  · unfold sortFileList
    rw [allKeys_ok names fun n hn => ascii_key n (h n hn)]
  · obtain ⟨ka, hka⟩ := ascii_key a (h a ha)
    obtain ⟨kb, hkb⟩ := ascii_key b (h b hb)
    refine ⟨ka, kb, _, hka, hkb, keyLt_eq false ka kb ?_ ?_⟩
    · have := naturalKeys_alternating a; rw [hka] at this; exact this
    · have := naturalKeys_alternating b; rw [hkb] at this; exact this

/-- C33: the result is a permutation of the input, and no name stands after one with a greater key. -/
theorem C33_sorted (names r : List (List Char)) (h : sortFileList names = .ok r) :
    r.Perm names ∧ r.Pairwise fun a b => ∃ ka kb, naturalKeys a = .ok ka ∧ naturalKeys b = .ok kb ∧ keyLt kb ka = .ok false := by
  unfold sortFileList at h
  cases hk : allKeys names with
  | error e => rw [hk] at h; cases h
  | ok u =>
    rw [hk] at h
    injection h with h
    subst h
    have hp := List.mergeSort_perm names nameLe
    refine ⟨hp, ?_⟩
    have hs := List.pairwise_mergeSort (le := nameLe) nameLe_trans nameLe_total names
    refine (List.pairwise_iff_forall_sublist.2 fun {a b} hab => ?_)
    have hab' := List.pairwise_iff_forall_sublist.1 hs hab
    have ha : a ∈ names := hp.mem_iff.1 (hab.subset (by simp))
    have hb : b ∈ names := hp.mem_iff.1 (hab.subset (by simp))
    obtain ⟨ka, hka⟩ := allKeys_ok_iff names hk a ha
    obtain ⟨kb, hkb⟩ := allKeys_ok_iff names hk b hb
    refine ⟨ka, kb, hka, hkb, ?_⟩
    rw [nameLe_eq] at hab'
    have h1 := naturalKeys_alternating a
    have h2 := naturalKeys_alternating b
    unfold keyOf at hab'
    rw [hka] at h1 hab'
    rw [hkb] at h2 hab'
    rw [keyLt_eq false kb ka h2 h1]
    change (!seqLt elLt' kb ka) = true at hab'
    simpa using hab'

/-- C33: names whose order is not prescribed by their keys, in particular names with equal keys, keep their relative order. -/
theorem C33_stable (names r : List (List Char)) (h : sortFileList names = .ok r) (a b : List Char) (ka kb : List KeyEl)
    (hka : naturalKeys a = .ok ka) (hkb : naturalKeys b = .ok kb) (hle : keyLt kb ka = .ok false)
    (hab : [a, b].Sublist names) : [a, b].Sublist r := by
  unfold sortFileList at h
  cases hk : allKeys names with
  | error e => rw [hk] at h; cases h
  | ok u =>
    rw [hk] at h
    injection h with h
    subst h
    refine List.pair_sublist_mergeSort nameLe_trans nameLe_total ?_ hab
    unfold nameLe
    rw [hka, hkb]
    change (match keyLt kb ka with | .ok true => false | _ => true) = true
    rw [hle]

/-- keys of names with a common beginning and a number after it -/
theorem key_number (pre d post : List Char) (hpre : NoDigitBehind pre) (hd : Digits d) (hpost : NoDigitAhead post) :
    ∃ ps cur, (∀ rest, splitRuns false [] (pre ++ rest) = ps ++ splitRuns false cur rest) ∧
      naturalKeys (pre ++ d ++ post) = atoiAll (ps ++ cur :: d :: splitRuns false [] post) := by
  obtain ⟨ps, b', cur, h1, h2⟩ := splitRuns_append false [] pre
  have hb' : b' = false := by
    rcases h2 with ⟨_, h⟩ | ⟨c, hc, h⟩
    · exact h
    · rw [h]; exact (noDigitBehind_iff _).1 hpre c hc
  subst hb'
  refine ⟨ps, cur, h1, ?_⟩
  unfold naturalKeys
  rw [List.append_assoc, h1, splitRuns_digits cur d post ((digits_iff _).1 hd).2 hd.1 ((noDigitAhead_iff _).1 hpost)]

theorem atoiAll_append (ps qs : List (List Char)) (k : List KeyEl) (h : atoiAll (ps ++ qs) = .ok k) :
    ∃ kp kq, atoiAll ps = .ok kp ∧ atoiAll qs = .ok kq ∧ k = kp ++ kq := by
  induction ps generalizing k with
  | nil => exact ⟨[], k, rfl, h, rfl⟩
  | cons p ps ih =>
    obtain ⟨x, ks', h1, h2, rfl⟩ := atoiAll_cons_ok _ _ _ h
    obtain ⟨kp, kq, h3, h4, rfl⟩ := ih ks' h2
    exact ⟨x :: kp, kq, by rw [atoiAll, h1, h3], h4, rfl⟩

theorem keyLt_append (p a b : List KeyEl) : keyLt (p ++ a) (p ++ b) = keyLt a b := by
  induction p with
  | nil => rfl
  | cons x p ih => rw [List.cons_append, List.cons_append, keyLt, if_pos rfl, ih]

theorem keyLt_number (pre d d' post post' : List Char) (hpre : NoDigitBehind pre) (hd : Digits d) (hd' : Digits d')
    (hpost : NoDigitAhead post) (hpost' : NoDigitAhead post') (k k' : List KeyEl)
    (hk : naturalKeys (pre ++ d ++ post) = .ok k) (hk' : naturalKeys (pre ++ d' ++ post') = .ok k') :
    ∃ q q', atoiAll (splitRuns false [] post) = .ok q ∧ atoiAll (splitRuns false [] post') = .ok q' ∧
      keyLt k k' = if parseDec d = parseDec d' then keyLt q q' else .ok (decide (parseDec d < parseDec d')) := by
  obtain ⟨ps, cur, h1, h2⟩ := key_number pre d post hpre hd hpost
  have h3 : naturalKeys (pre ++ d' ++ post') = atoiAll (ps ++ cur :: d' :: splitRuns false [] post') := by
    unfold naturalKeys
    rw [List.append_assoc, h1, splitRuns_digits cur d' post' ((digits_iff _).1 hd').2 hd'.1 ((noDigitAhead_iff _).1 hpost')]
  rw [hk] at h2
  rw [hk'] at h3
  obtain ⟨kp, kq, e1, e2, rfl⟩ := atoiAll_append _ _ _ h2.symm
  obtain ⟨kp', kq', e1', e2', rfl⟩ := atoiAll_append _ _ _ h3.symm
  rw [e1] at e1'
  injection e1' with e1'
  subst e1'
  obtain ⟨x, y, f1, f2, rfl⟩ := atoiAll_cons_ok _ _ _ e2
  obtain ⟨x', y', f1', f2', rfl⟩ := atoiAll_cons_ok _ _ _ e2'
  rw [f1] at f1'
  injection f1' with f1'
  subst f1'
  obtain ⟨z, q, g1, g2, rfl⟩ := atoiAll_cons_ok _ _ _ f2
  obtain ⟨z', q', g1', g2', rfl⟩ := atoiAll_cons_ok _ _ _ f2'
  rw [atoi_digits d ((digits_iff _).1 hd).2 hd.1] at g1
  rw [atoi_digits d' ((digits_iff _).1 hd').2 hd'.1] at g1'
  injection g1 with g1
  injection g1' with g1'
  subst g1 g1'
  refine ⟨q, q', g2, g2', ?_⟩
  rw [keyLt_append, keyLt, if_pos rfl, keyLt]
  by_cases e : parseDec d = parseDec d'
  · rw [if_pos (by rw [e]), if_pos e]
  · rw [if_neg (by simpa using e), if_neg e]; rfl

/-- C33: of two names that agree up to a complete run of digits, the one with the smaller number stands first, whatever the
notation of the numbers (leading zeros) and whatever follows them. -/
theorem C33_run_number (names r : List (List Char)) (h : sortFileList names = .ok r) (pre d d' post post' : List Char)
    (hpre : NoDigitBehind pre) (hd : Digits d) (hd' : Digits d') (hpost : NoDigitAhead post) (hpost' : NoDigitAhead post')
    (hlt : parseDec d < parseDec d') (i j : Nat) (hi : r[i]? = some (pre ++ d ++ post)) (hj : r[j]? = some (pre ++ d' ++ post')) :
    i < j := by
  obtain ⟨hp, hs⟩ := C33_sorted names r h
  have key : ∀ n ∈ r, ∃ k, naturalKeys n = .ok k := by
    intro n hn
    have hn' := hp.mem_iff.1 hn
    unfold sortFileList at h
    cases hk : allKeys names with
    | error e => rw [hk] at h; cases h
    | ok u => exact allKeys_ok_iff names hk n hn'
  obtain ⟨k, hk⟩ := key _ (List.mem_of_getElem? hi)
  obtain ⟨k', hk'⟩ := key _ (List.mem_of_getElem? hj)
  obtain ⟨q, q', _, _, hq⟩ := keyLt_number pre d d' post post' hpre hd hd' hpost hpost' k k' hk hk'
  rw [if_neg (by omega), decide_eq_true hlt] at hq
  by_contra hij
  rcases Nat.lt_or_eq_of_le (Nat.le_of_not_lt hij) with hji | hji
  · obtain ⟨hi1, hi2⟩ := List.getElem?_eq_some_iff.1 hi
    obtain ⟨hj1, hj2⟩ := List.getElem?_eq_some_iff.1 hj
    obtain ⟨ka, kb, e1, e2, e3⟩ := List.pairwise_iff_getElem.1 hs j i hj1 hi1 hji
    rw [hj2, hk'] at e1
    rw [hi2, hk] at e2
    injection e1 with e1
    injection e2 with e2
    subst e1 e2
    rw [hq] at e3
    cases e3
  · subst hji
    rw [hi] at hj
    injection hj with hj
    rw [hj, hk'] at hk
    injection hk with hk
    subst hk
    have : ∀ k : List KeyEl, keyLt k k = .ok false := by
      intro k
      induction k with
      | nil => rfl
      | cons x k ih => rw [keyLt, if_pos rfl, ih]
    rw [this] at hq
    cases hq

/-- C33: names that differ only in the notation of a number have equal keys -/
theorem C33_equal_number (pre d d' post : List Char) (hpre : NoDigitBehind pre) (hd : Digits d) (hd' : Digits d')
    (hpost : NoDigitAhead post) (heq : parseDec d = parseDec d') (k k' : List KeyEl)
    (hk : naturalKeys (pre ++ d ++ post) = .ok k) (hk' : naturalKeys (pre ++ d' ++ post) = .ok k') :
    keyLt k k' = .ok false ∧ keyLt k' k = .ok false := by
  have irr : ∀ k : List KeyEl, keyLt k k = .ok false := by
    intro k
    induction k with
    | nil => rfl
    | cons x k ih => rw [keyLt, if_pos rfl, ih]
  obtain ⟨q, q', h1, h2, h3⟩ := keyLt_number pre d d' post post hpre hd hd' hpost hpost k k' hk hk'
  obtain ⟨p, p', h1', h2', h3'⟩ := keyLt_number pre d' d post post hpre hd' hd hpost hpost k' k hk' hk
  rw [h1] at h2 ; rw [h1'] at h2'
  injection h2 with h2
  injection h2' with h2'
  subst h2 h2'
  rw [if_pos heq, irr] at h3
  rw [if_pos heq.symm, irr] at h3'
  exact ⟨h3, h3'⟩

/-- C33, outside the quantifier: a superscript after a number has no key, and the whole sorting fails -/
theorem C33_superscript_fails :
    sortFileList ["Run1_r1.tio".toList, "Run2²".toList] = .error .valueError := by decide +kernel

example : sortFileList ["Run10_r1.tio".toList, "Run9_r1.tio".toList, "Run009_r1.tio".toList] =
    .ok ["Run9_r1.tio".toList, "Run009_r1.tio".toList, "Run10_r1.tio".toList] := by
  have : allKeys ["Run10_r1.tio".toList, "Run9_r1.tio".toList, "Run009_r1.tio".toList] = .ok () := by decide +kernel
  have h1 : nameLe "Run10_r1.tio".toList "Run9_r1.tio".toList = false := by decide +kernel
  have h2 : nameLe "Run9_r1.tio".toList "Run009_r1.tio".toList = true := by decide +kernel
  have h3 : nameLe "Run10_r1.tio".toList "Run009_r1.tio".toList = false := by decide +kernel
  unfold sortFileList
  rw [this]
  simp only [List.mergeSort, List.MergeSort.Internal.splitInTwo, List.length, List.splitAt, List.splitAt.go]
  simp [List.mergeSort, h1, h2, h3, -String.reduceToList, -String.toList_ofList]

example : parseDec "9".toList < parseDec "10".toList ∧ NoDigitBehind "Run".toList ∧ Digits "009".toList ∧ NoDigitAhead "_r1.tio".toList := by
  refine ⟨by decide, ?_, ⟨by decide, by decide⟩, ?_⟩
  · intro c hc
    have : c = 'n' := by simpa using hc.symm
    subst this; decide
  · intro c hc
    have : c = '_' := by simpa using hc.symm
    subst this; decide

end Verif.Props
