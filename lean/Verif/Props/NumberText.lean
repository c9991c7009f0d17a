import Verif.Model.NumberText
import Verif.Props.WaveformReader

/-!
# C187: the numbers written on the plots of single-photoelectron fits

The texts are read again by `readNumber`, an independent specification of how decimal numbers are written.
-/

namespace Verif.Props

open Verif.Py Verif.Model

/-- digits before and after the point -/
noncomputable def decimalValue (whole fraction : List Char) : ℝ := parseDec whole + parseDec fraction / 10 ^ fraction.length

/-- what may follow: nothing, or the exponent -/
noncomputable def readExponent (v : ℝ) : List Char → Option ℝ
  | [] => some v
  | 'e' :: '+' :: ds => some (v * 10 ^ parseDec ds)
  | 'e' :: '-' :: ds => some (v / 10 ^ parseDec ds)
  | _ => none

/-- a number without sign -/
noncomputable def readUnsigned (t : List Char) : Option ℝ :=
  match t.dropWhile isDigitChar with
  | '.' :: r => readExponent (decimalValue (t.takeWhile isDigitChar) (r.takeWhile isDigitChar)) (r.dropWhile isDigitChar)
  | r => readExponent (decimalValue (t.takeWhile isDigitChar) []) r

/-- the number a text stands for -/
noncomputable def readNumber : List Char → Option ℝ
  | '-' :: t => (readUnsigned t).map fun v => -v
  | t => readUnsigned t

theorem nearestNat_near (x : ℝ) (hx : 0 ≤ x) : |(nearestNat x : ℝ) - x| ≤ 1 / 2 := by
  have h1 := Nat.floor_le hx
  have h2 := Nat.lt_floor_add_one x
  unfold nearestNat
  split
  · rename_i h
    rw [abs_le]
    constructor <;> rcases h with h | ⟨h, -⟩ <;> linarith
  · rename_i h
    rw [not_or, not_lt] at h
    push_cast
    rw [abs_le]
    constructor <;> linarith [h.1]

theorem digits_split (i r : List Char) (hi : ∀ c ∈ i, isDigitChar c = true) (hr : ∀ c ∈ r.head?, isDigitChar c = false) :
    (i ++ r).takeWhile isDigitChar = i ∧ (i ++ r).dropWhile isDigitChar = r := by
  rw [List.takeWhile_append_of_pos hi, List.dropWhile_append_of_pos hi]
  cases r with
  | nil => simp
  | cons c r =>
    have := hr c (by simp)
    simp [this]

/-- what follows a number: nothing, or an exponent -/
def Follows (t : List Char) : Prop := t = [] ∨ ∃ r, t = 'e' :: r

theorem Follows.head {t : List Char} (h : Follows t) : ∀ c ∈ t.head?, isDigitChar c = false := by
  rcases h with rfl | ⟨r, rfl⟩
  · simp
  · intro c hc
    simp only [List.head?_cons, Option.mem_def, Option.some.injEq] at hc
    subst hc
    decide

theorem readUnsigned_point (i f t : List Char) (hi : ∀ c ∈ i, isDigitChar c = true) (hf : ∀ c ∈ f, isDigitChar c = true) (ht : Follows t) :
    readUnsigned (i ++ '.' :: f ++ t) = readExponent (decimalValue i f) t := by
  have e : i ++ '.' :: f ++ t = i ++ ('.' :: (f ++ t)) := by simp
  obtain ⟨a, b⟩ := digits_split i ('.' :: (f ++ t)) hi (by intro c hc; simp at hc; subst hc; decide)
  obtain ⟨c, d⟩ := digits_split f t hf ht.head
  unfold readUnsigned
  rw [e, b]
  simp only [a, c, d]

theorem readUnsigned_whole (i t : List Char) (hi : ∀ c ∈ i, isDigitChar c = true) (ht : Follows t) :
    readUnsigned (i ++ t) = readExponent (decimalValue i []) t := by
  obtain ⟨a, b⟩ := digits_split i t hi ht.head
  unfold readUnsigned
  rw [b]
  rw [a]
  rcases ht with rfl | ⟨r, rfl⟩
  · rfl
  · split
    · rename_i heq
      simp at heq
    · rfl

theorem signed_read (x v : ℝ) (i t : List Char) (hi : ∀ c ∈ i, isDigitChar c = true) (hne : i ≠ []) (h : readUnsigned (i ++ t) = some v) :
    readNumber (signText x ++ (i ++ t)) = some (if x < 0 then -v else v) := by
  unfold signText
  split
  · simp only [List.cons_append, List.nil_append, readNumber, h, Option.map_some]
  · cases i with
    | nil => exact absurd rfl hne
    | cons c i =>
      have hc : c ≠ '-' := by
        rintro rfl
        have := hi '-' (by simp)
        revert this
        decide
      simp only [List.nil_append, List.cons_append] at h ⊢
      unfold readNumber
      split
      · rename_i heq
        simp only [List.cons.injEq] at heq
        exact absurd heq.1 hc
      · exact h

theorem decimal_length_le (d : Nat) (hd : 0 < d) : ∀ n, n < 10 ^ d → (decimal n).length ≤ d := by
  have key : ∀ (fuel d n : Nat), 0 < d → n < fuel → n < 10 ^ d → (decimalAux fuel n).length ≤ d := by
    intro fuel
    induction fuel with
    | zero => intro d n _ h; omega
    | succ fuel ih =>
      intro d n hd hn hlt
      unfold decimalAux
      split
      · simp; omega
      · rename_i h10
        obtain ⟨k, rfl⟩ : ∃ k, d = k + 1 := ⟨d - 1, by omega⟩
        have hk : 0 < k := by
          rcases Nat.eq_zero_or_pos k with rfl | h
          · omega
          · exact h
        have := ih k (n / 10) hk (by omega) (by rw [pow_succ] at hlt; omega)
        simp only [List.length_append, List.length_cons, List.length_nil]
        omega
  intro n hn
  exact key (n + 1) d n hd (by omega) hn

theorem decimalPad_length (d n : Nat) (hd : 0 < d) (hn : n < 10 ^ d) : (decimalPad d n).length = d := by
  have := decimal_length_le d hd n hn
  simp only [decimalPad, List.length_append, List.length_replicate]
  omega

theorem decimalValue_pad (d n : Nat) (hd : 0 < d) : decimalValue (decimal (n / 10 ^ d)) (decimalPad d (n % 10 ^ d)) = n / 10 ^ d := by
  have hlt : n % 10 ^ d < 10 ^ d := Nat.mod_lt _ (by positivity)
  unfold decimalValue
  rw [decimalPad_length d _ hd hlt, parseDec_decimal, parseDec_decimalPad]
  have h10 : (10 : ℝ) ^ d ≠ 0 := by positivity
  have := Nat.div_add_mod n (10 ^ d)
  have h : (n : ℝ) = 10 ^ d * ((n / 10 ^ d : ℕ) : ℝ) + ((n % 10 ^ d : ℕ) : ℝ) := by exact_mod_cast this.symm
  rw [h]
  field_simp

/-- **C187**, fixed digits: the text with three decimals reads as a number within half a thousandth of the one written -/
theorem C187_fixed (x : ℝ) : ∃ v, readNumber (fixedText 3 x) = some v ∧ |v - x| ≤ 1 / 2000 := by
  have hn := nearestNat_near (|x| * 10 ^ 3) (by positivity)
  refine ⟨_, signed_read x ((nearestNat (|x| * 10 ^ 3) : ℝ) / 10 ^ 3) _ _ (decimal_digits _) (decimal_ne_nil _) ?_, ?_⟩
  · have := readUnsigned_point (decimal (nearestNat (|x| * 10 ^ 3) / 10 ^ 3)) (decimalPad 3 (nearestNat (|x| * 10 ^ 3) % 10 ^ 3)) [] (decimal_digits _)
      (decimalPad_digits _ _) (.inl rfl)
    rw [List.append_nil] at this
    rw [this, decimalValue_pad 3 _ (by norm_num)]
    rfl
  · rw [abs_le] at hn ⊢
    split
    · rename_i h
      rw [abs_of_neg h] at hn ⊢
      constructor <;> linarith [hn.1, hn.2]
    · rename_i h
      rw [abs_of_nonneg (not_lt.1 h)] at hn ⊢
      constructor <;> linarith [hn.1, hn.2]

theorem stripped (f : List Char) : ∃ k, f = (f.reverse.dropWhile (· = '0')).reverse ++ List.replicate k '0' := by
  refine ⟨(f.reverse.takeWhile (· = '0')).length, ?_⟩
  have h := List.takeWhile_append_dropWhile (p := fun c : Char => decide (c = '0')) (l := f.reverse)
  have h2 := congrArg List.reverse h
  rw [List.reverse_append, List.reverse_reverse] at h2
  have h3 : (f.reverse.takeWhile (· = '0')).reverse = List.replicate (f.reverse.takeWhile (· = '0')).length '0' := by
    rw [List.eq_replicate_iff]
    refine ⟨by simp, fun b hb => ?_⟩
    have := List.all_takeWhile (p := fun c : Char => decide (c = '0')) (l := f.reverse)
    rw [List.all_eq_true] at this
    simpa using this b (List.mem_reverse.1 hb)
  rw [h3] at h2
  exact h2.symm

theorem decimalValue_zeros (i f : List Char) (k : Nat) : decimalValue i (f ++ List.replicate k '0') = decimalValue i f := by
  have hz : parseDec (List.replicate k '0') = 0 := by
    have := parseDec_replicate k []
    simpa [parseDec] using this
  unfold decimalValue
  rw [parseDec_append, hz, List.length_append, List.length_replicate, pow_add]
  push_cast
  rw [add_zero, mul_div_mul_right _ _ (by positivity)]

/-- dropping zeros at the end of the fraction does not change the number -/
theorem withFraction_read (i f t : List Char) (hi : ∀ c ∈ i, isDigitChar c = true) (hf : ∀ c ∈ f, isDigitChar c = true) (ht : Follows t) :
    ∃ r, withFraction i f ++ t = i ++ r ∧ readUnsigned (i ++ r) = readExponent (decimalValue i f) t := by
  obtain ⟨k, hk⟩ := stripped f
  have hv : decimalValue i f = decimalValue i (f.reverse.dropWhile (· = '0')).reverse := by
    conv_lhs => rw [hk]
    exact decimalValue_zeros i _ k
  simp only [withFraction]
  split
  · rename_i h
    refine ⟨t, rfl, ?_⟩
    rw [readUnsigned_whole i t hi ht, hv, h]
  · refine ⟨'.' :: (f.reverse.dropWhile (· = '0')).reverse ++ t, by simp, ?_⟩
    rw [← List.append_assoc, hv]
    refine readUnsigned_point i _ t hi (fun c hc => hf c ?_) ht
    exact List.mem_reverse.1 ((List.dropWhile_sublist _).subset (List.mem_reverse.1 hc))

theorem plainText_read (d m : Nat) : ∃ r, plainText d m = decimal (m / 10 ^ d) ++ r ∧ readUnsigned (decimal (m / 10 ^ d) ++ r) = some ((m : ℝ) / 10 ^ d) := by
  obtain ⟨r, h1, h2⟩ := withFraction_read (decimal (m / 10 ^ d)) (if d = 0 then [] else decimalPad d (m % 10 ^ d)) [] (decimal_digits _)
    (by split
        · simp
        · exact decimalPad_digits _ _) (.inl rfl)
  refine ⟨r, by rw [← h1, List.append_nil]; rfl, ?_⟩
  rw [h2]
  show some _ = some _
  congr 1
  split
  · rename_i h
    subst h
    have : parseDec [] = 0 := rfl
    simp [decimalValue, this]
  · rename_i h
    exact decimalValue_pad d m (by omega)

theorem scientificText_read (m : Nat) (e : Int) :
    ∃ r, scientificText m e = decimal (m / 100) ++ r ∧ readUnsigned (decimal (m / 100) ++ r) = some ((m / 10 ^ 2 : ℝ) * 10 ^ e) := by
  obtain ⟨r, h1, h2⟩ := withFraction_read (decimal (m / 100)) (decimalPad 2 (m % 100)) ('e' :: (if e < 0 then '-' else '+') :: decimalPad 2 e.natAbs)
    (decimal_digits _) (decimalPad_digits _ _) (.inr ⟨_, rfl⟩)
  refine ⟨r, h1, ?_⟩
  have hv := decimalValue_pad 2 m (by norm_num)
  norm_num at hv
  rw [h2, hv]
  split
  · rename_i h
    simp only [readExponent, parseDec_decimalPad]
    congr 1
    obtain ⟨k, hk⟩ := Int.eq_ofNat_of_zero_le (show 0 ≤ -e by omega)
    have : e = -(k : Int) := by omega
    subst this
    simp only [Int.natAbs_neg, Int.natAbs_natCast, zpow_neg, zpow_natCast]
    norm_num [div_eq_mul_inv]
  · rename_i h
    simp only [readExponent, parseDec_decimalPad]
    congr 1
    obtain ⟨k, rfl⟩ := Int.eq_ofNat_of_zero_le (show 0 ≤ e by omega)
    norm_num

theorem threeDigits_near (a : ℝ) (ha : 0 < a) :
    100 ≤ (threeDigits a).1 ∧ (threeDigits a).1 < 1000 ∧ |((threeDigits a).1 : ℝ) * 10 ^ ((threeDigits a).2 - 2) - a| ≤ a / 200 := by
  have h1 := Int.zpow_log_le_self (b := 10) (by norm_num) ha
  have h2 := Int.lt_zpow_succ_log_self (b := 10) (by norm_num) a
  push_cast at h1 h2
  set e := Int.log 10 a with he
  have h10 : (10 : ℝ) ≠ 0 := by norm_num
  have hq : (0 : ℝ) < 10 ^ (2 - e) := zpow_pos (by norm_num) _
  have hp : (0 : ℝ) < 10 ^ (e - 2) := zpow_pos (by norm_num) _
  have hpq : (10 : ℝ) ^ (2 - e) * 10 ^ (e - 2) = 1 := by rw [← zpow_add₀ h10]; simp
  have lo : 100 ≤ a * 10 ^ (2 - e) := by
    calc (100 : ℝ) = 10 ^ e * 10 ^ (2 - e) := by rw [← zpow_add₀ h10]; norm_num
      _ ≤ a * 10 ^ (2 - e) := mul_le_mul_of_nonneg_right h1 hq.le
  have hi : a * 10 ^ (2 - e) < 1000 := by
    calc a * 10 ^ (2 - e) < 10 ^ (e + 1) * 10 ^ (2 - e) := mul_lt_mul_of_pos_right h2 hq
      _ = 1000 := by rw [← zpow_add₀ h10, show e + 1 + (2 - e) = 3 by ring]; norm_num
  have hn := nearestNat_near (a * 10 ^ (2 - e)) (by positivity)
  have key : |(nearestNat (a * 10 ^ (2 - e)) : ℝ) * 10 ^ (e - 2) - a| ≤ a / 200 := by
    have e1 : (nearestNat (a * 10 ^ (2 - e)) : ℝ) * 10 ^ (e - 2) - a = ((nearestNat (a * 10 ^ (2 - e)) : ℝ) - a * 10 ^ (2 - e)) * 10 ^ (e - 2) := by
      rw [sub_mul, mul_assoc a, hpq, mul_one]
    rw [e1, abs_mul, abs_of_pos hp]
    have e2 : (1 / 2 : ℝ) * 10 ^ (e - 2) = 10 ^ e / 200 := by
      rw [zpow_sub₀ h10]; norm_num; ring
    calc |(nearestNat (a * 10 ^ (2 - e)) : ℝ) - a * 10 ^ (2 - e)| * 10 ^ (e - 2) ≤ 1 / 2 * 10 ^ (e - 2) := mul_le_mul_of_nonneg_right hn hp.le
      _ = 10 ^ e / 200 := e2
      _ ≤ a / 200 := by linarith
  have hlo : 100 ≤ nearestNat (a * 10 ^ (2 - e)) := by
    have : 100 ≤ ⌊a * 10 ^ (2 - e)⌋₊ := Nat.le_floor (by exact_mod_cast lo)
    unfold nearestNat
    split <;> omega
  have hhi : nearestNat (a * 10 ^ (2 - e)) ≤ 1000 := by
    have : ⌊a * 10 ^ (2 - e)⌋₊ < 1000 := (Nat.floor_lt (by positivity)).2 (by exact_mod_cast hi)
    unfold nearestNat
    split <;> omega
  unfold threeDigits
  simp only [← he]
  split
  · rename_i hm
    refine ⟨le_rfl, by norm_num, ?_⟩
    rw [hm] at key
    have : ((100 : ℕ) : ℝ) * 10 ^ (e + 1 - 2) = ((1000 : ℕ) : ℝ) * 10 ^ (e - 2) := by
      rw [show e + 1 - 2 = (e - 2) + 1 by ring, zpow_add₀ h10]; push_cast; ring
    rw [this]
    exact key
  · rename_i hm
    exact ⟨hlo, lt_of_le_of_ne hhi hm, key⟩

theorem generalText_read (x : ℝ) (hx : x ≠ 0) : readNumber (generalText x) =
    some (if x < 0 then -(((threeDigits |x|).1 : ℝ) * 10 ^ ((threeDigits |x|).2 - 2)) else ((threeDigits |x|).1 : ℝ) * 10 ^ ((threeDigits |x|).2 - 2)) := by
  have h10 : (10 : ℝ) ≠ 0 := by norm_num
  set p := threeDigits |x| with hp
  unfold generalText
  rw [if_neg hx]
  simp only [← hp]
  split
  · rename_i hr
    obtain ⟨r, r1, r2⟩ := plainText_read (2 - p.2).toNat p.1
    rw [r1]
    refine signed_read x _ _ r (decimal_digits _) (decimal_ne_nil _) (r2.trans ?_)
    congr 1
    rw [div_eq_mul_inv, ← zpow_natCast, Int.toNat_of_nonneg (by omega), ← zpow_neg]
    congr 2
    ring
  · obtain ⟨r, r1, r2⟩ := scientificText_read p.1 p.2
    rw [r1]
    refine signed_read x _ _ r (decimal_digits _) (decimal_ne_nil _) (r2.trans ?_)
    congr 1
    rw [zpow_sub₀ h10]
    norm_num
    ring

/-- **C187**, significant digits: zero is written as zero; the text of any other number reads as a number of the same sign with three significant digits, within half a percent -/
theorem C187_general (x : ℝ) : ∃ v, readNumber (generalText x) = some v ∧ |v - x| ≤ |x| / 200 ∧
    (x ≠ 0 → 0 < v * x ∧ ∃ (m : Nat) (j : Int), 100 ≤ m ∧ m < 1000 ∧ |v| = m * 10 ^ j) := by
  by_cases hx : x = 0
  · subst hx
    refine ⟨0, ?_, by simp, by simp⟩
    have := readUnsigned_whole ['0'] [] (by decide) (.inl rfl)
    simp only [generalText, if_true]
    simp only [List.append_nil] at this
    show readUnsigned ['0'] = _
    rw [this]
    simp [readExponent, decimalValue, parseDec, digitVal]
  · have ha : 0 < |x| := abs_pos.2 hx
    obtain ⟨h1, h2, h3⟩ := threeDigits_near |x| ha
    have h10 : (10 : ℝ) ≠ 0 := by norm_num
    set p := threeDigits |x| with hp
    have hvpos : (0 : ℝ) < p.1 * 10 ^ (p.2 - 2) := by
      have : (0 : ℝ) < p.1 := by exact_mod_cast (by omega : 0 < p.1)
      have := zpow_pos (show (0 : ℝ) < 10 by norm_num) (p.2 - 2)
      positivity
    have hread := generalText_read x hx
    rw [← hp] at hread
    refine ⟨_, hread, ?_, fun _ => ⟨?_, p.1, p.2 - 2, h1, h2, ?_⟩⟩
    · split
      · rename_i hneg
        rw [abs_of_neg hneg] at h3 ⊢
        rw [abs_le] at h3 ⊢
        constructor <;> linarith [h3.1, h3.2]
      · rename_i hneg
        rw [abs_of_nonneg (not_lt.1 hneg)] at h3 ⊢
        exact h3
    · split
      · rename_i hneg
        nlinarith
      · rename_i hneg
        have : 0 < x := lt_of_le_of_ne (not_lt.1 hneg) (Ne.symm hx)
        positivity
    · split
      · rw [abs_neg, abs_of_pos hvpos]
      · rw [abs_of_pos hvpos]

theorem digits_no_e (l : List Char) (h : ∀ c ∈ l, isDigitChar c = true) : 'e' ∉ l := by
  intro he
  have := h 'e' he
  revert this
  decide

theorem withFraction_no_e (i f : List Char) (hi : ∀ c ∈ i, isDigitChar c = true) (hf : ∀ c ∈ f, isDigitChar c = true) : 'e' ∉ withFraction i f := by
  have h1 := digits_no_e i hi
  have h2 := digits_no_e f hf
  simp only [withFraction]
  split
  · exact h1
  · intro h
    rcases List.mem_append.1 h with h | h
    · exact h1 h
    · rcases List.mem_cons.1 h with h | h
      · exact absurd h (by decide)
      · exact h2 (List.mem_reverse.1 ((List.dropWhile_sublist _).subset (List.mem_reverse.1 h)))

/-- **C187**, the form of the significant digits: an exponent is written exactly for numbers that are, after rounding, below a ten-thousandth or from 1000 on -/
theorem C187_exponent (x : ℝ) (hx : x ≠ 0) : ∃ v, readNumber (generalText x) = some v ∧ ('e' ∈ generalText x ↔ |v| < 1 / 10000 ∨ 1000 ≤ |v|) := by
  have ha : 0 < |x| := abs_pos.2 hx
  obtain ⟨h1, h2, -⟩ := threeDigits_near |x| ha
  refine ⟨_, generalText_read x hx, ?_⟩
  have hs : 'e' ∉ signText x := by
    unfold signText
    split <;> decide
  have h10 : (1 : ℝ) < 10 := by norm_num
  have habs : |(if x < 0 then -(((threeDigits |x|).1 : ℝ) * 10 ^ ((threeDigits |x|).2 - 2)) else ((threeDigits |x|).1 : ℝ) * 10 ^ ((threeDigits |x|).2 - 2))| =
      ((threeDigits |x|).1 : ℝ) * 10 ^ ((threeDigits |x|).2 - 2) := by
    have : (0 : ℝ) ≤ ((threeDigits |x|).1 : ℝ) * 10 ^ ((threeDigits |x|).2 - 2) := by positivity
    split
    · rw [abs_neg, abs_of_nonneg this]
    · rw [abs_of_nonneg this]
  rw [habs]
  unfold generalText
  rw [if_neg hx]
  simp only
  generalize threeDigits |x| = p at h1 h2 ⊢
  have l1 : (100 : ℝ) ≤ p.1 := by exact_mod_cast h1
  have l2 : (p.1 : ℝ) < 1000 := by exact_mod_cast h2
  have hpos := zpow_pos (show (0 : ℝ) < 10 by norm_num) (p.2 - 2)
  split
  · rename_i hr
    constructor
    · intro h
      rcases List.mem_append.1 h with h | h
      · exact absurd h hs
      · refine absurd h (withFraction_no_e _ _ (decimal_digits _) ?_)
        split
        · simp
        · exact decimalPad_digits _ _
    · rintro (h | h)
      · have : (10 : ℝ) ^ (-6 : Int) ≤ 10 ^ (p.2 - 2) := zpow_le_zpow_right₀ h10.le (by omega)
        norm_num at this
        nlinarith
      · have : (10 : ℝ) ^ (p.2 - 2) ≤ 10 ^ (0 : Int) := zpow_le_zpow_right₀ h10.le (by omega)
        rw [zpow_zero] at this
        nlinarith
  · rename_i hr
    refine ⟨fun _ => ?_, fun _ => by simp [scientificText]⟩
    rcases lt_or_ge p.2 (-4) with h | h
    · have : (10 : ℝ) ^ (p.2 - 2) ≤ 10 ^ (-7 : Int) := zpow_le_zpow_right₀ h10.le (by omega)
      norm_num at this
      left
      nlinarith
    · have : (10 : ℝ) ^ (1 : Int) ≤ 10 ^ (p.2 - 2) := zpow_le_zpow_right₀ h10.le (by omega)
      norm_num at this
      right
      nlinarith

/-- 1234 is written with an exponent, 123.4 without -/
example : 'e' ∈ generalText 1234 ∧ 'e' ∉ generalText 123.4 := by
  constructor
  · obtain ⟨v, h1, h2⟩ := C187_exponent 1234 (by norm_num)
    obtain ⟨w, g1, g2, -⟩ := C187_general 1234
    obtain rfl : v = w := Option.some.inj (h1.symm.trans g1)
    rw [abs_of_pos (by norm_num : (0 : ℝ) < 1234), abs_le] at g2
    rw [h2, abs_of_pos (by linarith [g2.1])]
    right
    linarith [g2.1]
  · obtain ⟨v, h1, h2⟩ := C187_exponent 123.4 (by norm_num)
    obtain ⟨w, g1, g2, -⟩ := C187_general 123.4
    obtain rfl : v = w := Option.some.inj (h1.symm.trans g1)
    rw [abs_of_pos (by norm_num : (0 : ℝ) < 123.4), abs_le] at g2
    norm_num at g2
    rw [h2, abs_of_pos (by linarith [g2.1]), not_or, not_lt, not_le]
    constructor <;> norm_num <;> linarith [g2.1, g2.2]

/-- **C187**, ties: a number half-way between two thousandths is written as the even one of them -/
theorem C187_ties (x : ℝ) (k : Nat) (h : |x| * 1000 = k + 1 / 2) : ∃ v, ∃ m : Nat, readNumber (fixedText 3 x) = some v ∧ m % 2 = 0 ∧ |v| * 1000 = m := by
  have hf : ⌊|x| * 10 ^ 3⌋₊ = k := by
    rw [Nat.floor_eq_iff (by positivity)]
    norm_num
    constructor <;> linarith
  have hd : |x| * 10 ^ 3 - k = 1 / 2 := by
    norm_num
    linarith
  have he : nearestNat (|x| * 10 ^ 3) % 2 = 0 := by
    unfold nearestNat
    rw [hf, hd]
    split
    · rename_i hc
      rcases hc with hc | hc
      · exact absurd hc (lt_irrefl _)
      · exact hc.2
    · rename_i hc
      rw [not_or] at hc
      have : k % 2 ≠ 0 := fun hk => hc.2 ⟨rfl, hk⟩
      omega
  refine ⟨_, nearestNat (|x| * 10 ^ 3), signed_read x ((nearestNat (|x| * 10 ^ 3) : ℝ) / 10 ^ 3) _ _ (decimal_digits _) (decimal_ne_nil _) ?_, he, ?_⟩
  · have := readUnsigned_point (decimal (nearestNat (|x| * 10 ^ 3) / 10 ^ 3)) (decimalPad 3 (nearestNat (|x| * 10 ^ 3) % 10 ^ 3)) [] (decimal_digits _)
      (decimalPad_digits _ _) (.inl rfl)
    rw [List.append_nil] at this
    rw [this, decimalValue_pad 3 _ (by norm_num)]
    rfl
  · have h0 : (0 : ℝ) ≤ (nearestNat (|x| * 10 ^ 3) : ℝ) / 10 ^ 3 := by positivity
    split
    · rw [abs_neg, abs_of_nonneg h0]; norm_num
    · rw [abs_of_nonneg h0]; norm_num

/-- 0.0625 is 62.5 thousandths, and 0.1875 is 187.5 -/
example : (∃ v, ∃ m : Nat, readNumber (fixedText 3 0.0625) = some v ∧ m % 2 = 0 ∧ |v| * 1000 = m) ∧ ∃ v, ∃ m : Nat, readNumber (fixedText 3 (-0.1875)) = some v ∧ m % 2 = 0 ∧ |v| * 1000 = m :=
  ⟨C187_ties _ 62 (by norm_num), C187_ties _ 187 (by norm_num)⟩

/-- a text reads as a number to three significant digits -/
def ThreeDigitsOf (t : List Char) (x : ℝ) : Prop := ∃ v, readNumber t = some v ∧ |v - x| ≤ |x| / 200

/-- a text reads as a number to a thousandth -/
def ThousandthOf (t : List Char) (x : ℝ) : Prop := ∃ v, readNumber t = some v ∧ |v - x| ≤ 1 / 2000

/-- **C187**, histograms: the label has the mean of the values and their standard deviation, to three significant digits -/
theorem C187_histogram (values : List ℝ) (h : values ≠ []) : ∃ a b, histogramLabel values = "Mean = ".toList ++ a ++ ", Stddev = ".toList ++ b ∧
    ThreeDigitsOf a (values.sum / values.length) ∧
    ThreeDigitsOf b (Real.sqrt ((values.map fun v => (v - values.sum / values.length) ^ 2).sum / values.length)) := by
  refine ⟨_, _, by unfold histogramLabel; rw [if_neg h], ?_, ?_⟩
  · obtain ⟨v, h1, h2, -⟩ := C187_general (histMean values)
    exact ⟨v, h1, h2⟩
  · obtain ⟨v, h1, h2, -⟩ := C187_general (histStd values)
    exact ⟨v, h1, h2⟩

example : ∃ a b, histogramLabel [1, 2, 6] = "Mean = ".toList ++ a ++ ", Stddev = ".toList ++ b ∧ ThreeDigitsOf a 3 := by
  obtain ⟨a, b, h1, h2, -⟩ := C187_histogram [1, 2, 6] (by simp)
  norm_num at h2
  exact ⟨a, b, h1, h2⟩

/-- **C187** as far as it holds for the light levels: value and error to a thousandth. (Missing from the full claim: three significant digits, see `C187_false`.) -/
theorem C187_levels_partial (values errors : Dict String ℝ) (i : Nat) (v e : ℝ) (hv : Dict.get? values ("lambda_" ++ String.ofList (decimal i)) = some v)
    (he : Dict.get? errors ("lambda_" ++ String.ofList (decimal i)) = some e) :
    ∃ a b, levelLabel values errors i = .ok ("λ_".toList ++ decimal i ++ " = ".toList ++ (a ++ " ± ".toList ++ b) ++ " p.e.".toList) ∧
      ThousandthOf a v ∧ ThousandthOf b e := by
  have hname : String.ofList ("lambda_".toList ++ decimal i) = "lambda_" ++ String.ofList (decimal i) := by
    rw [String.ofList_append, String.ofList_toList]
  refine ⟨fixedText 3 v, fixedText 3 e, ?_, C187_fixed v, C187_fixed e⟩
  unfold levelLabel Dict.getItem
  simp only [hname, hv, he]
  rfl

example : ∃ a b, levelLabel [("lambda_0", 0.7)] [("lambda_0", 0.01)] 0 = .ok ("λ_".toList ++ decimal 0 ++ " = ".toList ++ (a ++ " ± ".toList ++ b) ++ " p.e.".toList) ∧
    ThousandthOf a 0.7 ∧ ThousandthOf b 0.01 :=
  C187_levels_partial _ _ 0 _ _ (by rw [show ("lambda_" ++ String.ofList (decimal 0)) = "lambda_0" by decide]; simp [Dict.get?])
    (by rw [show ("lambda_" ++ String.ofList (decimal 0)) = "lambda_0" by decide]; simp [Dict.get?])

theorem fitTable_cells (values errors initial : Dict String ℝ) (hi : ∀ p ∈ values, ∃ a, Dict.get? initial p.1 = some a)
    (he : ∀ p ∈ values, ∃ a, Dict.get? errors p.1 = some a) :
    fitTable values errors initial = .ok (values.map fun p => (p.1, generalText ((Dict.get? initial p.1).getD 0), withError p.2 ((Dict.get? errors p.1).getD 0))) := by
  have h1 := mapM_ok (fun p : String × ℝ => (Dict.getItem initial p.1).map fun a => (p.1, generalText a, fixedText 3 p.2))
    (fun p => (p.1, generalText ((Dict.get? initial p.1).getD 0), fixedText 3 p.2)) values (by
      intro p hp
      obtain ⟨a, ha⟩ := hi p hp
      simp only [Dict.getItem, ha, Option.getD_some]
      rfl)
  have hz : ∀ (g : String × ℝ → String × List Char × List Char) (l : List (String × ℝ)), (l.map g).zip l = l.map fun p => (g p, p) := by
    intro g l
    induction l with
    | nil => rfl
    | cons p l ih => rw [List.map_cons, List.zip_cons_cons, ih]; rfl
  have h2 := mapM_ok (fun c : (String × List Char × List Char) × (String × ℝ) => (Dict.getItem errors c.2.1).map fun err => (c.1.1, c.1.2.1, withError c.2.2 err))
    (fun c => (c.1.1, c.1.2.1, withError c.2.2 ((Dict.get? errors c.2.1).getD 0)))
    (values.map fun p => ((p.1, generalText ((Dict.get? initial p.1).getD 0), fixedText 3 p.2), p)) (by
      intro c hc
      obtain ⟨p, hp, rfl⟩ := List.mem_map.1 hc
      obtain ⟨a, ha⟩ := he p hp
      simp only [Dict.getItem, ha, Option.getD_some]
      rfl)
  unfold fitTable
  rw [h1]
  simp only [hz]
  rw [h2, List.map_map]
  rfl

/-- **C187** as far as it holds for the table: a row for each fitted value, in order, with the initial value to three significant digits and the value and its error to a thousandth. (Missing
from the full claim: three significant digits of the last two, see `C187_false`.) -/
theorem C187_table_partial (values errors initial : Dict String ℝ) (hi : ∀ p ∈ values, ∃ a, Dict.get? initial p.1 = some a)
    (he : ∀ p ∈ values, ∃ a, Dict.get? errors p.1 = some a) :
    ∃ rows, fitTable values errors initial = .ok rows ∧ rows.map (·.1) = values.map (·.1) ∧
      ∀ (k : Nat) row p a e, rows[k]? = some row → values[k]? = some p → Dict.get? initial p.1 = some a → Dict.get? errors p.1 = some e →
        ThreeDigitsOf row.2.1 a ∧ ∃ s t, row.2.2 = s ++ " ± ".toList ++ t ∧ ThousandthOf s p.2 ∧ ThousandthOf t e := by
  refine ⟨_, fitTable_cells values errors initial hi he, by simp [Function.comp_def], fun k row p a e hr hp ha hE => ?_⟩
  rw [List.getElem?_map, hp] at hr
  simp only [Option.map_some, Option.some.injEq] at hr
  subst hr
  simp only [ha, hE, Option.getD_some]
  obtain ⟨v, h1, h2, -⟩ := C187_general a
  exact ⟨⟨v, h1, h2⟩, _, _, rfl, C187_fixed _, C187_fixed _⟩

/-- **C187** is false as stated: an error of 0.0004 is written like one of zero -/
theorem C187_false : fixedText 3 0.0004 = fixedText 3 0 ∧ ¬ ThreeDigitsOf (fixedText 3 0.0004) 0.0004 := by
  have hn : ∀ x : ℝ, 0 ≤ x → x < 1 / 2 → nearestNat x = 0 := by
    intro x h0 h1
    have hf : ⌊x⌋₊ = 0 := Nat.floor_eq_zero.2 (by linarith)
    unfold nearestNat
    rw [hf, if_pos (.inl (by push_cast; linarith))]
  have e1 : fixedText 3 0.0004 = "0.000".toList := by
    unfold fixedText signText
    rw [hn _ (by positivity) (by rw [abs_of_pos (by norm_num)]; norm_num), if_neg (by norm_num)]
    decide
  have e2 : fixedText 3 0 = "0.000".toList := by
    unfold fixedText signText
    rw [hn _ (by positivity) (by simp), if_neg (by norm_num)]
    decide
  refine ⟨e1.trans e2.symm, ?_⟩
  rw [e1]
  rintro ⟨v, h1, h2⟩
  have : readNumber "0.000".toList = some 0 := by
    have := readUnsigned_point ['0'] ['0', '0', '0'] [] (by decide) (by decide) (.inl rfl)
    change readUnsigned "0.000".toList = _ at this
    show readUnsigned "0.000".toList = _
    rw [this]
    simp [readExponent, decimalValue, parseDec, digitVal]
  rw [this] at h1
  cases h1
  rw [zero_sub, abs_neg, abs_of_pos (by norm_num)] at h2
  norm_num at h2

/-- a parameter without initial value is a `KeyError` -/
theorem C187_no_initial (values errors initial : Dict String ℝ) (h : ∃ p ∈ values, Dict.get? initial p.1 = none) : fitTable values errors initial = .error .keyError := by
  have : values.mapM (fun p => (Dict.getItem initial p.1).map fun a => (p.1, generalText a, fixedText 3 p.2)) = (.error .keyError : Except Err _) := by
    induction values with
    | nil => obtain ⟨p, hp, -⟩ := h; cases hp
    | cons p l ih =>
      rw [List.mapM_cons]
      cases hp : Dict.get? initial p.1 with
      | none => simp only [Dict.getItem, hp]; rfl
      | some a =>
        obtain ⟨q, hq, hn⟩ := h
        rcases List.mem_cons.1 hq with rfl | hq
        · rw [hp] at hn; cases hn
        · rw [ih ⟨q, hq, hn⟩]
          simp only [Dict.getItem, hp]
          rfl
  unfold fitTable
  rw [this]

/-- a fit of two parameters -/
example : ∃ rows, fitTable [("spe", 25.1234), ("lambda_0", 0.7)] [("spe", 0.02), ("lambda_0", 0.0004)] [("lambda_0", 1), ("spe", 1 / 3)] = .ok rows ∧
    rows.map (·.1) = ["spe", "lambda_0"] := by
  obtain ⟨rows, h1, h2, -⟩ := C187_table_partial [("spe", 25.1234), ("lambda_0", 0.7)] [("spe", 0.02), ("lambda_0", 0.0004)] [("lambda_0", 1), ("spe", 1 / 3)]
    (by
      intro p hp
      simp only [List.mem_cons, List.not_mem_nil, or_false] at hp
      rcases hp with rfl | rfl
      · exact ⟨1 / 3, by simp [Dict.get?]⟩
      · exact ⟨1, by simp [Dict.get?]⟩)
    (by
      intro p hp
      simp only [List.mem_cons, List.not_mem_nil, or_false] at hp
      rcases hp with rfl | rfl
      · exact ⟨0.02, by simp [Dict.get?]⟩
      · exact ⟨0.0004, by simp [Dict.get?]⟩)
  exact ⟨rows, h1, by simpa using h2⟩

example : fitTable [("spe", 25)] [] [("lambda_0", 1)] = .error .keyError := C187_no_initial _ _ _ ⟨("spe", 25), by simp, by simp [Dict.get?]⟩

end Verif.Props
