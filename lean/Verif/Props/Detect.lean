import Verif.Model.Detect
import Mathlib.Tactic.Ring
import Mathlib.Tactic.Linarith
import Mathlib.Tactic.NormNum
import Mathlib.Data.List.Basic

/-! # C05, C06: file recognition and event time -/

namespace Verif.Props

open Verif.Py Verif.Model

/-! ## C05 -/

/-- the simtel marker, in the two byte orders -/
def simtelMarkerBE : List UInt8 := [0xD4, 0x1F, 0x8A, 0x37]
def simtelMarkerLE : List UInt8 := [0x37, 0x8A, 0x1F, 0xD4]

theorem unpack_marker (a b c d : UInt8) :
    ((unpackU32 [a, b, c, d]).map fun v => v == 3558836791 || v == 931798996)
      = .ok (decide ([a, b, c, d] = simtelMarkerBE ∨ [a, b, c, d] = simtelMarkerLE)) := by
  have ha := a.toNat_lt; have hb := b.toNat_lt; have hc := c.toNat_lt; have hd := d.toNat_lt
  simp only [unpackU32, Except.map, simtelMarkerBE, simtelMarkerLE, List.cons.injEq, and_true,
    ← UInt8.toNat_inj]
  congr 1
  rw [Bool.eq_iff_iff]
  simp only [Bool.or_eq_true, beq_iff_eq, decide_eq_true_eq, UInt8.toNat_ofNat]
  norm_num
  omega

/-- four leading bytes of a list that is long enough -/
theorem take4 (l : List UInt8) (h : 4 ≤ l.length) : ∃ a b c d t, l = a :: b :: c :: d :: t := by
  match l, h with
  | a :: b :: c :: d :: t, _ => exact ⟨a, b, c, d, t, rfl⟩

/-- C05: an uncompressed file (not starting with 1f 8b) of at least four bytes is recognised as simtel exactly when it
starts with the marker in either byte order. -/
theorem C05_simtel_plain (gunzip : Nat → List UInt8 → Except Err (List UInt8)) (file : List UInt8)
    (hlen : 4 ≤ file.length) (hgz : ¬ [0x1f, 0x8b] <+: file) :
    simtelCompatible gunzip file
      = .ok (decide (file.take 4 = simtelMarkerBE ∨ file.take 4 = simtelMarkerLE)) := by
  obtain ⟨a, b, c, d, t, rfl⟩ := take4 file hlen
  have hz : isGzip [a, b, c, d] = .ok false := by
    unfold isGzip
    by_cases h1 : a = 0x1f
    · by_cases h2 : b = 0x8b
      · exact absurd (by subst h1; subst h2; exact ⟨c :: d :: t, rfl⟩) hgz
      · simp [h1, h2]
    · simp [h1]
  have := unpack_marker a b c d
  simp only [simtelCompatible, readMarker, List.take_succ_cons, List.take_zero, hz, bind, Except.bind, pure,
    Except.pure]
  exact this

example : simtelCompatible (fun _ => .ok) [0xD4, 0x1F, 0x8A, 0x37, 0x00] = .ok true :=
  C05_simtel_plain (fun _ => .ok) [0xD4, 0x1F, 0x8A, 0x37, 0x00] (by decide) (by decide)
example : simtelCompatible (fun _ => .ok) [0xD4, 0x1F, 0x8A, 0x38, 0x00] = .ok false :=
  C05_simtel_plain (fun _ => .ok) [0xD4, 0x1F, 0x8A, 0x38, 0x00] (by decide) (by decide)

/-- C05: a gzipped file is recognised by the first four bytes of its decompressed content. -/
theorem C05_simtel_gzip (gunzip : Nat → List UInt8 → Except Err (List UInt8)) (file content : List UInt8)
    (hgz : [0x1f, 0x8b] <+: file) (hc : gunzip 4 file = .ok (content.take 4)) (hlen : 4 ≤ content.length) :
    simtelCompatible gunzip file
      = .ok (decide (content.take 4 = simtelMarkerBE ∨ content.take 4 = simtelMarkerLE)) := by
  obtain ⟨t, rfl⟩ := hgz
  obtain ⟨a, b, c, d, t', rfl⟩ := take4 content hlen
  have hz : isGzip (([0x1f, 0x8b] ++ t).take 4) = .ok true := by
    simp [isGzip]
  have := unpack_marker a b c d
  simp only [simtelCompatible, readMarker, hz, bind, Except.bind, pure, Except.pure, hc, Except.map,
    List.take_succ_cons, List.take_zero]
  exact this

example : simtelCompatible (fun k _ => .ok ([0x37, 0x8A, 0x1F, 0xD4, 1, 2].take k)) [0x1f, 0x8b, 8, 0] = .ok true :=
  C05_simtel_gzip (fun k _ => .ok ([0x37, 0x8A, 0x1F, 0xD4, 1, 2].take k)) [0x1f, 0x8b, 8, 0] [0x37, 0x8A, 0x1F, 0xD4, 1, 2]
    (by decide) rfl (by decide)

/-- C05 (error branch): a file with fewer than four bytes is not answered with `False` but raises: `IndexError` if it is
empty or the single byte 1f, `struct.error` otherwise (for plain files). -/
theorem C05_simtel_short (gunzip : Nat → List UInt8 → Except Err (List UInt8)) (file : List UInt8)
    (hlen : file.length < 4) (hgz : ¬ [0x1f, 0x8b] <+: file) :
    simtelCompatible gunzip file
      = .error (if file = [] ∨ file = [0x1f] then .indexError else .structError) := by
  match file, hlen with
  | [], _ => rfl
  | [a], _ =>
    by_cases h : a = 0x1f
    · subst h; rfl
    · simp [simtelCompatible, readMarker, isGzip, h, bind, Except.bind, unpackU32]
  | [a, b], _ =>
    by_cases h : a = 0x1f
    · by_cases h2 : b = 0x8b
      · exact absurd (by subst h; subst h2; exact ⟨[], rfl⟩) hgz
      · simp [simtelCompatible, readMarker, isGzip, h, h2, bind, Except.bind, unpackU32]
    · simp [simtelCompatible, readMarker, isGzip, h, bind, Except.bind, unpackU32]
  | [a, b, c], _ =>
    by_cases h : a = 0x1f
    · by_cases h2 : b = 0x8b
      · exact absurd (by subst h; subst h2; exact ⟨[c], rfl⟩) hgz
      · simp [simtelCompatible, readMarker, isGzip, h, h2, bind, Except.bind, unpackU32]
    · simp [simtelCompatible, readMarker, isGzip, h, bind, Except.bind, unpackU32]

example : simtelCompatible (fun _ => .ok) [] = .error .indexError := C05_simtel_short (fun _ => .ok) [] (by decide) (by decide)

theorem containsFITS_iff (l : List UInt8) : containsFITS l = true ↔ [0x46, 0x49, 0x54, 0x53] <:+: l := by
  induction l with
  | nil => simp [containsFITS]
  | cons b l ih =>
    rw [containsFITS, Bool.or_eq_true, ih, List.isPrefixOf_iff_prefix, List.infix_cons_iff]

/-- C05: a file of at least two bytes is recognised as TIO exactly when the bytes "FITS" occur in the first 1024 bytes
of its (decompressed) content and the FITS header has `EVENT_HEADER_VERSION`; an unreadable header gives `False`. -/
theorem C05_tio (gunzip : Nat → List UInt8 → Except Err (List UInt8)) (header : List UInt8 → Option (List String))
    (file content : List UInt8) (hlen : 2 ≤ file.length)
    (hc : if [0x1f, 0x8b] <+: file then gunzip 1024 file = .ok (content.take 1024) else content = file) :
    ∃ b, tioCompatible gunzip header file = .ok b ∧
      (b = true ↔ [0x46, 0x49, 0x54, 0x53] <:+: content.take 1024 ∧
        ∃ h, header file = some h ∧ "EVENT_HEADER_VERSION" ∈ h) := by
  have hz : isGzip (file.take 1024) = .ok (decide ([0x1f, 0x8b] <+: file)) := by
    match file, hlen with
    | a :: b :: t, _ =>
      unfold isGzip
      by_cases h1 : a = 0x1f
      · by_cases h2 : b = 0x8b
        · subst h1; subst h2; simp [List.prefix_cons_iff]
        · have : ¬ ((0x8b : UInt8) = b) := fun h => h2 h.symm
          simp [h1, h2, this, List.prefix_cons_iff]
      · have : ¬ ((0x1f : UInt8) = a) := fun h => h1 h.symm
        simp [h1, this, List.prefix_cons_iff]
  have hm : readMarker gunzip 1024 file = .ok (content.take 1024) := by
    unfold readMarker
    by_cases hg : [0x1f, 0x8b] <+: file
    · simp only [hg, if_true] at hc
      simp [hz, hg, hc, Except.map]
    · simp only [hg, if_false] at hc
      simp [hz, hg, hc]
  unfold tioCompatible
  rw [hm]
  simp only [bind, Except.bind, pure, Except.pure]
  cases hf : containsFITS (content.take 1024) with
  | false =>
    refine ⟨false, by simp, ?_⟩
    have : ¬ [0x46, 0x49, 0x54, 0x53] <:+: content.take 1024 := by
      rw [← containsFITS_iff, hf]; simp
    simp [this]
  | true =>
    have hi := (containsFITS_iff _).mp hf
    cases hh : header file with
    | none => exact ⟨false, by simp, by simp⟩
    | some h =>
      refine ⟨decide ("EVENT_HEADER_VERSION" ∈ h), by simp, ?_⟩
      simp [hi]

example : ∃ b, tioCompatible (fun _ => .ok) (fun _ => some ["SIMPLE", "EVENT_HEADER_VERSION"]) [0x53, 0x46, 0x49, 0x54, 0x53]
    = .ok b ∧ (b = true ↔ [0x46, 0x49, 0x54, 0x53] <:+: ([0x53, 0x46, 0x49, 0x54, 0x53] : List UInt8).take 1024 ∧
      ∃ h, (some ["SIMPLE", "EVENT_HEADER_VERSION"] : Option (List String)) = some h ∧ "EVENT_HEADER_VERSION" ∈ h) :=
  C05_tio (fun _ => .ok) (fun _ => some ["SIMPLE", "EVENT_HEADER_VERSION"]) [0x53, 0x46, 0x49, 0x54, 0x53]
    [0x53, 0x46, 0x49, 0x54, 0x53] (by decide) (by decide)

/-- C05: no plain file is recognised as both, given that astropy only parses a FITS header from a file that starts with
the byte 'S' (of the mandatory keyword `SIMPLE`). -/
theorem C05_exclusive (gunzip : Nat → List UInt8 → Except Err (List UInt8)) (header : List UInt8 → Option (List String))
    (hfits : ∀ f h, header f = some h → f.head? = some 0x53)
    (file : List UInt8) (hlen : 4 ≤ file.length) (hgz : ¬ [0x1f, 0x8b] <+: file) :
    ¬ (simtelCompatible gunzip file = .ok true ∧ tioCompatible gunzip header file = .ok true) := by
  rintro ⟨h1, h2⟩
  obtain ⟨b, hb, hiff⟩ := C05_tio gunzip header file file (by omega) (by simp [hgz])
  rw [hb] at h2
  cases h2
  obtain ⟨-, h, hh, -⟩ := hiff.mp rfl
  have hS := hfits file h hh
  rw [C05_simtel_plain gunzip file hlen hgz] at h1
  obtain ⟨a, b, c, d, t, rfl⟩ := take4 file hlen
  simp at hS
  subst hS
  simp [simtelMarkerBE, simtelMarkerLE] at h1

example : ¬ (simtelCompatible (fun _ => .ok) [0x53, 0x49, 0x4D, 0x50, 0x4C, 0x45] = .ok true ∧
    tioCompatible (fun _ => .ok) (fun f => if f.head? = some 0x53 then some ["EVENT_HEADER_VERSION"] else none)
      [0x53, 0x49, 0x4D, 0x50, 0x4C, 0x45] = .ok true) :=
  C05_exclusive (fun _ => .ok) (fun f => if f.head? = some 0x53 then some ["EVENT_HEADER_VERSION"] else none)
    (by intro f h hf; by_contra hne; simp [hne] at hf) [0x53, 0x49, 0x4D, 0x50, 0x4C, 0x45] (by decide) (by decide)

/-! ## C06 -/

theorem roundDouble_of_dvd (m : Nat) (h : 2 ^ ulpExp m ∣ m) : roundDouble m = m := by
  unfold roundDouble
  have hr : m % 2 ^ ulpExp m = 0 := Nat.mod_eq_zero_of_dvd h
  have hp : 0 < 2 ^ ulpExp m := Nat.pos_of_ne_zero (by positivity)
  simp only [hr]
  simp only [Nat.mul_zero, hp, true_or, if_true]
  exact Nat.div_mul_cancel h

theorem ulpExp_le (m k : Nat) (h : m < 2 ^ (53 + k)) : ulpExp m ≤ k := by
  unfold ulpExp
  split
  · omega
  · rename_i h0
    have hm : m ≠ 0 := by rintro rfl; simp at h0
    have : m.log2 < 53 + k := (Nat.log2_lt hm).mpr h
    omega

/-- the whole numbers that a double can hold -/
def IsDouble (x : Nat) : Prop := ∃ k e, k < 2 ^ 53 ∧ x = k * 2 ^ e

/-- C06, the product with 10⁹: rounding gives a number that a double can hold, no such number is nearer, and between two equally near ones it gives the one that is
an even multiple of their distance. -/
theorem C06_rounding (m : Nat) : IsDouble (roundDouble m) ∧ ∀ x, IsDouble x →
    |(m : Int) - roundDouble m| ≤ |(m : Int) - x| ∧
    (|(m : Int) - roundDouble m| = |(m : Int) - x| → x ≠ roundDouble m → 2 * |(roundDouble m : Int) - x| ∣ (roundDouble m : Int)) := by
  obtain ⟨e, he⟩ : ∃ e, e = ulpExp m := ⟨_, rfl⟩
  obtain ⟨q, hq⟩ : ∃ q, q = m / 2 ^ e := ⟨_, rfl⟩
  obtain ⟨r, hr⟩ : ∃ r, r = m % 2 ^ e := ⟨_, rfl⟩
  have hb : 0 < 2 ^ e := Nat.two_pow_pos e
  have hrb : r < 2 ^ e := hr ▸ Nat.mod_lt _ hb
  have hm : m = q * 2 ^ e + r := by
    have := Nat.div_add_mod m (2 ^ e)
    rw [← hq, ← hr, Nat.mul_comm] at this
    omega
  have hround : roundDouble m = if 2 * r < 2 ^ e ∨ (2 * r = 2 ^ e ∧ q % 2 = 0) then q * 2 ^ e else (q + 1) * 2 ^ e := by
    subst hq hr he
    rfl
  have hq53 : q < 2 ^ 53 ∧ (e = 0 ∨ 2 ^ 52 ≤ q) := by
    unfold ulpExp at he
    split at he
    · rename_i h
      subst he
      simp only [pow_zero, Nat.div_one] at hq
      exact ⟨by omega, Or.inl rfl⟩
    · rename_i h
      have hm0 : m ≠ 0 := by rintro rfl; simp at h
      have h1 : 53 ≤ m.log2 := (Nat.le_log2 hm0).2 (by omega)
      have h2 : m < 2 ^ (m.log2 + 1) := Nat.lt_log2_self
      have h3 : 2 ^ m.log2 ≤ m := Nat.log2_self_le hm0
      have e1 : 2 ^ (m.log2 + 1) = 2 ^ 53 * 2 ^ e := by rw [← pow_add]; congr 1; omega
      have e2 : 2 ^ m.log2 = 2 ^ 52 * 2 ^ e := by rw [← pow_add]; congr 1; omega
      rw [e1] at h2
      rw [e2] at h3
      constructor
      · rw [hq]; exact Nat.div_lt_of_lt_mul (by rw [Nat.mul_comm]; exact h2)
      · right; rw [hq]; exact (Nat.le_div_iff_mul_le hb).2 h3
  have hout : ∀ x, IsDouble x → x ≤ q * 2 ^ e ∨ (q + 1) * 2 ^ e ≤ x := by
    rintro x ⟨k, f, hk, rfl⟩
    rcases Nat.lt_or_ge f e with hf | hf
    · left
      have h52 : 2 ^ 52 ≤ q := by rcases hq53.2 with h | h <;> omega
      have : k * 2 ^ f ≤ 2 ^ 53 * 2 ^ f := Nat.mul_le_mul_right _ hk.le
      have e1 : 2 ^ 53 * 2 ^ f = 2 ^ 52 * 2 ^ (f + 1) := by rw [pow_succ]; ring
      have : 2 ^ (f + 1) ≤ 2 ^ e := Nat.pow_le_pow_right (by norm_num) hf
      have : 2 ^ 52 * 2 ^ (f + 1) ≤ q * 2 ^ e := Nat.mul_le_mul h52 this
      omega
    · obtain ⟨g, rfl⟩ : ∃ g, f = e + g := ⟨f - e, by omega⟩
      have e1 : k * 2 ^ (e + g) = (k * 2 ^ g) * 2 ^ e := by rw [pow_add]; ring
      rw [e1]
      rcases Nat.lt_or_ge q (k * 2 ^ g) with h | h
      · right; exact Nat.mul_le_mul_right _ h
      · left; exact Nat.mul_le_mul_right _ h
  have hdouble : ∀ a, a ≤ 2 ^ 53 → IsDouble (a * 2 ^ e) := by
    intro a ha
    rcases Nat.lt_or_ge a (2 ^ 53) with h | h
    · exact ⟨a, e, h, rfl⟩
    · exact ⟨1, 53 + e, by norm_num, by rw [show a = 2 ^ 53 by omega, pow_add]; ring⟩
  have hsucc : (q + 1) * 2 ^ e = q * 2 ^ e + 2 ^ e := by ring
  constructor
  · rw [hround]
    split
    · exact hdouble q (by omega)
    · exact hdouble (q + 1) (by omega)
  intro x hx
  have hx := hout x hx
  rw [hsucc] at hx
  rw [hround, hsucc]
  simp only [Int.abs_eq_natAbs]
  by_cases hc : 2 * r < 2 ^ e ∨ (2 * r = 2 ^ e ∧ q % 2 = 0)
  · rw [if_pos hc]
    generalize hB : (2 : Nat) ^ e = b at *
    generalize hA : q * b = a at *
    refine ⟨by omega, fun h hne => ?_⟩
    have hxa : (x : Int) = a + b ∧ q % 2 = 0 := by omega
    have : ((((a : Int) - x).natAbs : Nat) : Int) = b := by omega
    rw [this]
    obtain ⟨k, hk⟩ : ∃ k, q = 2 * k := ⟨q / 2, by omega⟩
    exact ⟨k, by rw [← hA, hk]; push_cast; ring⟩
  · rw [if_neg hc]
    generalize hB : (2 : Nat) ^ e = b at *
    generalize hA : q * b = a at *
    refine ⟨by omega, fun h hne => ?_⟩
    have hxa : (x : Int) = a ∧ q % 2 = 1 := by omega
    have : (((((a + b : Nat) : Int) - x).natAbs : Nat) : Int) = b := by omega
    rw [this]
    obtain ⟨k, hk⟩ : ∃ k, q = 2 * k + 1 := ⟨q / 2, by omega⟩
    exact ⟨k + 1, by rw [← hA, hk]; push_cast; ring⟩

/-- the first whole numbers that a double cannot hold: one goes down, the other up -/
example : roundDouble 9007199254740993 = 9007199254740992 ∧ roundDouble 9007199254740995 = 9007199254740996 := by decide +kernel

/-- C06: whatever the counters, the time is a signed 64-bit number, and the sum of the product and of the nanoseconds up to a multiple of 2⁶⁴. -/
theorem C06_range (s ns : Nat) : -2 ^ 63 ≤ tCpu s ns ∧ tCpu s ns < 2 ^ 63 ∧
    ∃ k : Int, tCpu s ns = (roundDouble (roundDouble s * 10 ^ 9) : Int) + ns + k * 2 ^ 64 := by
  unfold tCpu wrapInt64
  refine ⟨by omega, by omega, ?_⟩
  exact ⟨-(((roundDouble (roundDouble s * 10 ^ 9) : Int) + ns + 2 ^ 63) / 2 ^ 64), by norm_num; omega⟩

/-- C06: the event time is exact for every 32-bit seconds counter and every nanosecond count. -/
theorem C06_exact (s ns : Nat) (hs : s < 2 ^ 32) (hns : ns < 10 ^ 9) :
    tCpu s ns = (s * 10 ^ 9 + ns : Nat) := by
  have h1 : roundDouble s = s := by
    apply roundDouble_of_dvd
    have : ulpExp s ≤ 0 := ulpExp_le s 0 (by omega)
    have : ulpExp s = 0 := by omega
    rw [this]; simp
  have h2 : roundDouble (s * 1000000000) = s * 1000000000 := by
    apply roundDouble_of_dvd
    have hle : ulpExp (s * 1000000000) ≤ 9 := ulpExp_le _ 9 (by omega)
    have h9 : 2 ^ ulpExp (s * 1000000000) ∣ 2 ^ 9 := Nat.pow_dvd_pow 2 hle
    exact h9.trans ⟨s * 1953125, by ring⟩
  unfold tCpu wrapInt64
  rw [h1, h2]
  push_cast
  omega

example : tCpu 1555000123 999999999 = 1555000123999999999 := C06_exact 1555000123 999999999 (by decide) (by decide)

/-- C06: event times are ordered exactly as the (seconds, nanoseconds) pairs. -/
theorem C06_order (s ns s' ns' : Nat) (hs : s < 2 ^ 32) (hns : ns < 10 ^ 9) (hs' : s' < 2 ^ 32)
    (hns' : ns' < 10 ^ 9) :
    tCpu s ns < tCpu s' ns' ↔ s < s' ∨ (s = s' ∧ ns < ns') := by
  rw [C06_exact s ns hs hns, C06_exact s' ns' hs' hns']
  omega

example : tCpu 5 999999999 < tCpu 6 0 := (C06_order 5 999999999 6 0 (by decide) (by decide) (by decide) (by decide)).2
  (by decide)

/-- The 32-bit bound is not an artefact: for a larger seconds value the double product is rounded and the time is
wrong (here by 512 ns). -/
theorem C06_inexact_beyond : tCpu 4611686019 0 ≠ (4611686019 * 10 ^ 9 : Nat) := by
  have h0 : ¬ ((4611686019000000000 : Nat) < 2 ^ 53) := by norm_num
  have h1 : roundDouble 4611686019 = 4611686019 := by
    have : ulpExp 4611686019 = 0 := by unfold ulpExp; norm_num
    unfold roundDouble; rw [this]; norm_num
  have hl : Nat.log2 4611686019000000000 = 62 := by
    rw [Nat.log2_eq_iff (by norm_num)]; norm_num
  have h2 : ulpExp 4611686019000000000 = 10 := by
    unfold ulpExp; rw [if_neg h0, hl]
  have h3 : roundDouble 4611686019000000000 = 4611686019000000512 := by
    unfold roundDouble; rw [h2]; norm_num
  unfold tCpu wrapInt64
  rw [h1]
  norm_num
  rw [h3]
  norm_num

end Verif.Props
