import Verif.Lemmas.Reducers
import Verif.Model.Monitor
import Verif.Lemmas.Hdf5Reader
import Verif.Lemmas.Dl1Session
import Verif.Props.Hdf5
import Verif.Props.Appender
import Mathlib.Algebra.BigOperators.Group.Finset.Basic
import Mathlib.Algebra.BigOperators.Group.List.Basic
import Mathlib.Algebra.BigOperators.Intervals
import Mathlib.Data.Rat.Defs
import Mathlib.Tactic.Ring
import Mathlib.Tactic.NormNum
import Verif.Lemmas.VersionText

/-! # C90–C93: monitor tables of a DL1 file, version of a file -/

namespace Verif.Props

open Verif.Py Verif.Model Verif.Spec Verif.Lemmas

variable {ρ ν : Type}

/-! ### C90 -/

/-- the table a column name stands for: the camera table before the module table before the pixel table -/
def TableFor (m : Monitor ν) (column : String) : MonitorKey → Prop
  | .camera => column ∈ Dict.keys m.camera
  | .tm => column ∉ Dict.keys m.camera ∧ column ∈ Dict.keys m.tm
  | .pixel => column ∉ Dict.keys m.camera ∧ column ∉ Dict.keys m.tm ∧ column ∈ Dict.keys m.pixel

/-- the column of the data table with the numbers of the rows in the monitor table -/
def indexColumn : MonitorKey → String
  | .camera => "monitor_camera_index"
  | .tm => "monitor_tm_index"
  | .pixel => "monitor_pixel_index"

theorem keyForColumn_ok (m : Monitor ν) (column : String) (key : MonitorKey) (h : TableFor m column key) : m.keyForColumn column = .ok key := by
  unfold Monitor.keyForColumn
  cases key with
  | camera => rw [if_pos (show column ∈ Dict.keys m.camera from h)]
  | tm => rw [if_neg h.1, if_pos h.2]
  | pixel => rw [if_neg h.1, if_neg h.2.1, if_pos h.2.2]

theorem sliceList_none {α : Type} (xs : List α) : sliceList xs none none = xs := by simp [sliceList]

theorem selectColumn_all (m : Monitor ν) (column : String) (key : MonitorKey) (xs : List ν) (h : Dict.get? (m.table key) column = some xs) :
    m.selectColumn column (some key) none none = .ok ((List.range xs.length).zip xs) := by
  unfold Monitor.selectColumn Monitor.resolveKey
  simp only
  rw [(Verif.Py.Dict.getItem_eq_ok_iff _ _ _).2 h]
  simp only
  rw [sliceList_none]

theorem find_labels (xs : List ν) (s : Nat) (l : Int) :
    ((List.range' s xs.length).zip xs).find? (fun e => decide ((e.1 : Int) = l)) =
      if (s : Int) ≤ l then (xs[(l - s).toNat]?).map (fun v => (l.toNat, v)) else none := by
  induction xs generalizing s with
  | nil => simp
  | cons x xs ih =>
    rw [List.length_cons, List.range'_succ, List.zip_cons_cons, List.find?_cons]
    by_cases h : (s : Int) = l
    · subst h; simp
    · simp only [h, decide_false]
      rw [ih]
      by_cases h1 : (s : Int) ≤ l
      · rw [if_pos h1, if_pos (by push_cast; omega)]
        have : (l - s).toNat = (l - (s + 1 : Nat)).toNat + 1 := by push_cast; omega
        rw [this, List.getElem?_cons_succ]
      · rw [if_neg h1, if_neg (by push_cast; omega)]

theorem seriesTake_eq (xs : List ν) (labels : List Int) :
    seriesTake ((List.range xs.length).zip xs) labels =
      labels.mapM fun l => if 0 ≤ l then (match xs[l.toNat]? with | none => .error .keyError | some v => .ok (l, v)) else .error .keyError := by
  unfold seriesTake
  congr 1
  funext l
  have := find_labels xs 0 l
  rw [← List.range_eq_range'] at this
  rw [this]
  by_cases h : 0 ≤ l
  · simp only [Nat.cast_zero, h, if_true, sub_zero]
    cases xs[l.toNat]? <;> rfl
  · simp [h]

theorem matched_eq (data : Dict String (List Int)) (m : Monitor ν) (column : String) (key : MonitorKey) (hk : TableFor m column key) :
    matchedMonitorColumn data m column = match Dict.getItem data (indexColumn key) with
      | .error e => .error e
      | .ok rows => match m.selectColumn column (some key) none none with
        | .error e => .error e
        | .ok col => seriesTake col rows := by
  unfold matchedMonitorColumn
  rw [keyForColumn_ok m column key hk]
  cases key <;> rfl

/-- C90: entry by entry of the data table, the value of the monitor row whose number is stored there; it is labelled with that number. -/
theorem C90_matched (data : Dict String (List Int)) (m : Monitor ν) (column : String) (key : MonitorKey) (hk : TableFor m column key)
    (xs : List ν) (hx : Dict.get? (m.table key) column = some xs) (rows : List Int) (hr : Dict.get? data (indexColumn key) = some rows)
    (hin : ∀ i ∈ rows, 0 ≤ i ∧ i < xs.length) :
    ∃ out, matchedMonitorColumn data m column = .ok out ∧ out.length = rows.length ∧
      ∀ (n : Nat) (i : Int), rows[n]? = some i → ∃ v, xs[i.toNat]? = some v ∧ out[n]? = some (i, v) := by
  have hsel : matchedMonitorColumn data m column = seriesTake ((List.range xs.length).zip xs) rows := by
    rw [matched_eq data m column key hk,
      (Verif.Py.Dict.getItem_eq_ok_iff _ _ _).2 hr]
    simp only
    rw [selectColumn_all m column key xs hx]
  rw [hsel, seriesTake_eq]
  clear hsel hr
  induction rows with
  | nil => exact ⟨[], rfl, rfl, by simp⟩
  | cons r rows ih =>
    obtain ⟨out, ho, hl, he⟩ := ih fun i hi => hin i (by simp [hi])
    obtain ⟨h1, h2⟩ := hin r (by simp)
    have hlt : r.toNat < xs.length := by omega
    refine ⟨(r, xs[r.toNat]) :: out, ?_, by simp [hl], ?_⟩
    · rw [List.mapM_cons, ho, if_pos h1, List.getElem?_eq_getElem hlt]
      rfl
    · intro n i hi
      cases n with
      | zero =>
        simp only [List.getElem?_cons_zero, Option.some.injEq] at hi
        subst hi
        exact ⟨xs[r.toNat], List.getElem?_eq_getElem hlt, rfl⟩
      | succ n => simpa using he n i (by simpa using hi)

/-- C90: an unknown column, a data table without the numbers, or a number that is not a row of the monitor table raise `KeyError`. -/
theorem C90_errors (data : Dict String (List Int)) (m : Monitor ν) (column : String) :
    ((column ∉ Dict.keys m.camera ∧ column ∉ Dict.keys m.tm ∧ column ∉ Dict.keys m.pixel) → matchedMonitorColumn data m column = .error .keyError) ∧
    (∀ key, TableFor m column key → Dict.get? data (indexColumn key) = none → matchedMonitorColumn data m column = .error .keyError) ∧
    (∀ key xs rows, TableFor m column key → Dict.get? (m.table key) column = some xs → Dict.get? data (indexColumn key) = some rows →
      (∃ i ∈ rows, i < 0 ∨ (xs.length : Int) ≤ i) → matchedMonitorColumn data m column = .error .keyError) := by
  refine ⟨?_, ?_, ?_⟩
  · rintro ⟨h1, h2, h3⟩
    unfold matchedMonitorColumn Monitor.keyForColumn
    rw [if_neg h1, if_neg h2, if_neg h3]
  · intro key hk hd
    rw [matched_eq data m column key hk]
    unfold Dict.getItem
    rw [hd]
  · intro key xs rows hk hx hr hbad
    rw [matched_eq data m column key hk,
      (Verif.Py.Dict.getItem_eq_ok_iff _ _ _).2 hr]
    simp only
    rw [selectColumn_all m column key xs hx]
    simp only
    rw [seriesTake_eq]
    clear hr
    induction rows with
    | nil => simp at hbad
    | cons r rows ih =>
      rw [List.mapM_cons]
      by_cases hb : r < 0 ∨ (xs.length : Int) ≤ r
      · by_cases h0 : 0 ≤ r
        · rw [if_pos h0, List.getElem?_eq_none (by omega)]
          rfl
        · rw [if_neg h0]
          rfl
      · have hlt : r.toNat < xs.length := by omega
        rw [if_pos (by omega), List.getElem?_eq_getElem hlt, ih (by
          obtain ⟨i, hi, hb'⟩ := hbad
          rcases List.mem_cons.1 hi with rfl | hi
          · exact absurd hb' hb
          · exact ⟨i, hi, hb'⟩)]
        rfl

/-- a monitor with two entries of the camera temperature and two entries for each of two modules -/
def exMonitor : Monitor (Option ℚ) where
  camera := [("t_cpu", [some 0, some 1]), ("T_CHILLER", [some 10, some 12])]
  tm := [("t_cpu", [some 0, some 0, some 1, some 1]), ("T_PRI", [some 20, some 30, some 22, none])]
  pixel := [("t_cpu", [])]
  nEvents := 2
  nBytes := 100

/-- the second data row belongs to monitor row 3 -/
example : matchedMonitorColumn [("monitor_tm_index", [0, 3, 2])] exMonitor "T_PRI" = .ok [(0, some 20), (3, none), (2, some 22)] := by decide +kernel
example : TableFor exMonitor "T_PRI" .tm ∧ ∀ i ∈ ([0, 3, 2] : List Int), 0 ≤ i ∧ i < (4 : Int) := by
  refine ⟨⟨by decide, by decide⟩, by decide⟩
/-- a column that is in all three tables is the one of the camera -/
example : matchedMonitorColumn [("monitor_camera_index", [1, 1])] exMonitor "t_cpu" = .ok [(1, some 1), (1, some 1)] := by decide +kernel
example : matchedMonitorColumn [("monitor_tm_index", [0, -1])] exMonitor "T_PRI" = .error .keyError := by decide +kernel

/-! ### C91 -/

theorem filter_zip_sum {α β : Type} [DecidableEq α] (ds : List α) (vs : List β) (hl : ds.length = vs.length) (d : α) (f : β → ℚ) :
    ((((ds.zip vs).filter fun e => decide (e.1 = d)).map Prod.snd).map f).sum =
      ∑ r ∈ Finset.range ds.length, if ds[r]? = some d then (vs[r]?.map f).getD 0 else 0 := by
  induction ds generalizing vs with
  | nil => simp
  | cons a ds ih =>
    cases vs with
    | nil => simp at hl
    | cons v vs =>
      rw [List.length_cons, Finset.sum_range_succ', List.zip_cons_cons, List.filter_cons]
      have := ih vs (by simpa using hl)
      by_cases h : a = d
      · subst h
        simp only [decide_true, if_true, List.map_cons, List.sum_cons, List.getElem?_cons_succ, List.getElem?_cons_zero, Option.map_some, Option.getD_some]
        rw [this]; ring
      · simp only [h, decide_false, List.getElem?_cons_succ, List.getElem?_cons_zero, Option.some.injEq, if_false, add_zero]
        simpa using this

/-- number of values of a device that are not NaN -/
def validCount (ds : List Int) (vs : List (Option ℚ)) (d : Int) : ℚ :=
  ∑ r ∈ Finset.range ds.length, if ds[r]? = some d then (vs[r]?.map fun v => if v.isSome then (1 : ℚ) else 0).getD 0 else 0
/-- their sum -/
def validSum (ds : List Int) (vs : List (Option ℚ)) (d : Int) : ℚ :=
  ∑ r ∈ Finset.range ds.length, if ds[r]? = some d then (vs[r]?.map fun v => v.getD 0).getD 0 else 0

theorem nanMean_spec (xs : List (Option ℚ)) :
    nanMean xs = if (xs.map fun v => if v.isSome then (1 : ℚ) else 0).sum = 0 then none
      else some ((xs.map fun v => v.getD 0).sum / (xs.map fun v => if v.isSome then (1 : ℚ) else 0).sum) := by
  have key : (xs.map fun v => if v.isSome then (1 : ℚ) else 0).sum = ((xs.filterMap id).length : ℚ) ∧
      (xs.map fun v => v.getD 0).sum = (xs.filterMap id).sum := by
    induction xs with
    | nil => simp
    | cons x xs ih =>
      cases x with
      | none => simpa using ih
      | some q =>
        simp only [List.map_cons, List.sum_cons, Option.isSome_some, if_true, ih.1, Option.getD_some, ih.2, List.filterMap_cons, id, List.length_cons]
        push_cast
        constructor
        · ring
        · trivial
  rw [key.1, key.2]
  unfold nanMean
  simp only
  by_cases h : xs.filterMap id = []
  · simp
  · rw [if_neg h, if_neg]
    intro h0
    have := List.length_pos_iff.2 h
    have h0' : (xs.filterMap id).length = 0 := by exact_mod_cast h0
    omega

/-- C91: one number per device, in ascending order of the devices: the mean of its values, leaving NaN out, and NaN for a device with no other values. -/
theorem C91_average (m : Monitor (Option ℚ)) (devices : MonitorKey → List Int) (column : String) (key : MonitorKey) (hk : TableFor m column key)
    (hc : column ≠ "idevice") (vs : List (Option ℚ)) (hv : Dict.get? (m.table key) column = some vs) (hl : (devices key).length = vs.length) :
    ∃ (us : List Int) (out : List (Option ℚ)), us.Pairwise (· < ·) ∧ (∀ d, d ∈ us ↔ d ∈ devices key) ∧ m.average devices column = .ok out ∧
      out.length = us.length ∧ ∀ (k : Nat) d, us[k]? = some d →
        out[k]? = some (if validCount (devices key) vs d = 0 then none else some (validSum (devices key) vs d / validCount (devices key) vs d)) := by
  refine ⟨unique (devices key), (unique (devices key)).map fun d => nanMean ((((devices key).zip vs).filter fun e => e.1 = d).map Prod.snd),
    pairwise_unique _, fun d => mem_unique d _, ?_, by simp, ?_⟩
  · unfold Monitor.average
    rw [keyForColumn_ok m column key hk]
    simp only
    rw [selectColumn_all m column key vs hv]
    simp only
    rw [if_neg hc, if_neg (by simp [hl])]
    have : ((List.range vs.length).zip vs).map Prod.snd = vs := by
      rw [List.map_snd_zip]
      simp
    rw [this]
  · intro k d hkd
    rw [List.getElem?_map, hkd, Option.map_some, nanMean_spec, filter_zip_sum _ _ hl, filter_zip_sum _ _ hl]
    rfl

/-- C91: if the devices are numbered 0, 1, …, the number at position `d` is the mean of device `d`. -/
theorem C91_by_number (m : Monitor (Option ℚ)) (devices : MonitorKey → List Int) (column : String) (key : MonitorKey) (hk : TableFor m column key)
    (hc : column ≠ "idevice") (vs : List (Option ℚ)) (hv : Dict.get? (m.table key) column = some vs) (hl : (devices key).length = vs.length)
    (n : Nat) (hn : ∀ d, d ∈ devices key ↔ 0 ≤ d ∧ d < n) :
    ∃ out, m.average devices column = .ok out ∧ out.length = n ∧ ∀ d : Nat, d < n →
      out[d]? = some (if validCount (devices key) vs d = 0 then none else some (validSum (devices key) vs d / validCount (devices key) vs d)) := by
  obtain ⟨us, out, hp, hm, ho, hlen, he⟩ := C91_average m devices column key hk hc vs hv hl
  have hus : us = (List.range n).map fun (i : Nat) => (i : Int) := by
    have hp2 : ((List.range n).map fun (i : Nat) => (i : Int)).Pairwise (· < ·) := by
      rw [List.pairwise_map]
      exact List.pairwise_lt_range.imp fun h => by exact_mod_cast h
    have hperm : us.Perm ((List.range n).map fun (i : Nat) => (i : Int)) := by
      rw [List.perm_ext_iff_of_nodup (hp.imp fun h => h.ne) (hp2.imp fun h => h.ne)]
      intro d
      rw [hm, hn]
      simp only [List.mem_map, List.mem_range]
      constructor
      · rintro ⟨a, b⟩; exact ⟨d.toNat, by omega, by omega⟩
      · rintro ⟨a, b, rfl⟩; omega
    exact hperm.eq_of_pairwise (fun a b _ _ h1 h2 => absurd h1 (by omega)) hp hp2
  refine ⟨out, ho, by rw [hlen, hus]; simp, fun d hd => ?_⟩
  apply he
  rw [hus, List.getElem?_map, List.getElem?_range hd]
  rfl

/-- C91: an unknown column and the device numbers themselves raise `KeyError`; a column whose length is not that of the device numbers raises `ValueError`. -/
theorem C91_errors (m : Monitor (Option ℚ)) (devices : MonitorKey → List Int) (column : String) :
    ((column ∉ Dict.keys m.camera ∧ column ∉ Dict.keys m.tm ∧ column ∉ Dict.keys m.pixel) → m.average devices column = .error .keyError) ∧
    (∀ key vs, TableFor m column key → Dict.get? (m.table key) column = some vs →
      (column = "idevice" → m.average devices column = .error .keyError) ∧
      (column ≠ "idevice" → (devices key).length ≠ vs.length → m.average devices column = .error .valueError)) := by
  refine ⟨?_, fun key vs hk hv => ⟨fun hc => ?_, fun hc hl => ?_⟩⟩
  · rintro ⟨h1, h2, h3⟩
    unfold Monitor.average Monitor.keyForColumn
    rw [if_neg h1, if_neg h2, if_neg h3]
  · unfold Monitor.average
    rw [keyForColumn_ok m column key hk]
    simp only
    rw [selectColumn_all m column key vs hv]
    simp only
    rw [if_pos hc]
  · unfold Monitor.average
    rw [keyForColumn_ok m column key hk]
    simp only
    rw [selectColumn_all m column key vs hv]
    simp only
    rw [if_neg hc, if_pos (by simpa using hl)]

example : exMonitor.average (fun _ => [0, 1, 0]) "T_PRI" = .error .valueError ∧ exMonitor.average (fun _ => [0, 1, 0, 1]) "T_SEC" = .error .keyError := by decide +kernel

/-- device 0 has the values 20 and 22, device 1 the value 30 and NaN -/
example : exMonitor.average (fun _ => [0, 1, 0, 1]) "T_PRI" = .ok [some 21, some 30] := by decide +kernel
example : ∀ d, d ∈ ([0, 1, 0, 1] : List Int) ↔ 0 ≤ d ∧ d < ((2 : Nat) : Int) := by
  intro d; simp; omega
/-- without device 1 the second number belongs to device 2 -/
example : exMonitor.average (fun _ => [0, 2, 0, 2]) "T_PRI" = .ok [some 21, some 30] := by decide +kernel

/-! ### C92 -/

theorem reshape_blocks {α : Type} (blocks : List (List α)) (b : Nat) (hb : ∀ x ∈ blocks, x.length = b) : reshape blocks.length b blocks.flatten = .ok blocks := by
  have hlen : blocks.flatten.length = blocks.length * b := by
    induction blocks with
    | nil => simp
    | cons x xs ih =>
      rw [List.flatten_cons, List.length_append, ih fun y hy => hb y (by simp [hy]), hb x (by simp), List.length_cons]
      ring
  unfold reshape
  rw [if_pos hlen]
  congr 1
  clear hlen
  induction blocks with
  | nil => rfl
  | cons x xs ih =>
    have hx := hb x (by simp)
    have hrest := ih fun y hy => hb y (by simp [hy])
    rw [List.length_cons, List.range_succ_eq_map, List.map_cons, List.map_map]
    congr 1
    · simp [← hx]
    · refine Eq.trans ?_ hrest
      apply List.map_congr_left
      intro i _
      simp only [Function.comp_apply, List.flatten_cons]
      rw [List.drop_append]
      have e1 : x.drop (i.succ * b) = [] := List.drop_eq_nil_of_le (by rw [hx, Nat.succ_mul]; omega)
      have e2 : i.succ * b - x.length = i * b := by rw [hx, Nat.succ_mul]; omega
      rw [e1, e2, List.nil_append]

/-- C92, what holds: for a whole column with the same number of values in each of the monitor's entries, the array has one row per entry with its values in
order. (The full claim is for every selection of rows.) -/
theorem C92_partial (m : Monitor ν) (column : String) (key : MonitorKey) (blocks : List (List ν)) (b : Nat) (hb : ∀ x ∈ blocks, x.length = b)
    (hne : 0 < blocks.length) (hn : m.nEvents = blocks.length) (hx : Dict.get? (m.table key) column = some blocks.flatten) :
    m.columnAsArray column (some key) none none = .ok blocks ∧ (TableFor m column key → m.columnAsArray column none none none = .ok blocks) := by
  have hlen : blocks.flatten.length = blocks.length * b := by
    clear hn hx hne
    induction blocks with
    | nil => simp
    | cons x xs ih =>
      rw [List.flatten_cons, List.length_append, ih fun y hy => hb y (by simp [hy]), hb x (by simp), List.length_cons]
      ring
  have h1 : m.columnAsArray column (some key) none none = .ok blocks := by
    unfold Monitor.columnAsArray
    rw [selectColumn_all m column key _ hx]
    simp only
    rw [if_neg (by omega)]
    have : ((List.range blocks.flatten.length).zip blocks.flatten).map Prod.snd = blocks.flatten := by
      rw [List.map_snd_zip]
      simp
    rw [this]
    have : ((List.range blocks.flatten.length).zip blocks.flatten).length / m.nEvents = b := by
      rw [List.length_zip, List.length_range, Nat.min_self, hlen, hn, Nat.mul_comm, Nat.mul_div_cancel _ hne]
    rw [this, hn]
    exact reshape_blocks blocks b hb
  refine ⟨h1, fun hk => ?_⟩
  rw [← h1]
  unfold Monitor.columnAsArray Monitor.selectColumn Monitor.resolveKey
  simp only
  rw [keyForColumn_ok m column key hk]

/-- C92: a selection of rows of a column holds the values of these rows in order, labelled from 0. -/
theorem C92_select (m : Monitor ν) (column : String) (key : MonitorKey) (xs : List ν) (h : Dict.get? (m.table key) column = some xs) (a b : Nat) (hab : a ≤ b) (hb : b ≤ xs.length) :
    ∃ s, m.selectColumn column (some key) (some a) (some b) = .ok s ∧ s.length = b - a ∧ ∀ i < b - a, s[i]? = (xs[a + i]?).map fun v => (i, v) := by
  have hsl : sliceList xs (some (a : Int)) (some (b : Int)) = (xs.drop a).take (b - a) := sliceList_nat xs a b (by omega) hb
  have hlen : ((xs.drop a).take (b - a)).length = b - a := by simp; omega
  refine ⟨(List.range (b - a)).zip ((xs.drop a).take (b - a)), ?_, by rw [List.length_zip, hlen]; simp, ?_⟩
  · unfold Monitor.selectColumn Monitor.resolveKey
    simp only
    rw [(Verif.Py.Dict.getItem_eq_ok_iff _ _ _).2 h]
    simp only
    rw [hsl, hlen]
  · intro i hi
    rw [List.getElem?_eq_getElem (by rw [List.length_zip, hlen]; simp; omega), List.getElem_zip, List.getElem_range, List.getElem_take, List.getElem_drop,
      List.getElem?_eq_getElem (by omega)]
    rfl

example : exMonitor.selectColumn "T_PRI" (some .tm) (some 1) (some 3) = .ok [(0, some 30), (1, some 22)] := by decide +kernel

/-- C92: a whole table is read unless the file is larger than 8 GB and reading is not forced, which raises `MemoryError`. -/
theorem C92_load (m : Monitor ν) (key : MonitorKey) (force : Bool) :
    (m.nBytes ≤ 8000000000 ∨ force = true → m.loadEntireTable key force = .ok (m.table key)) ∧
    (8000000000 < m.nBytes → m.loadEntireTable key false = .error .memoryError) := by
  unfold Monitor.loadEntireTable
  constructor
  · rintro (h | h)
    · rw [if_neg (by omega)]
    · rw [if_neg (by simp [h])]
  · intro h
    rw [if_pos ⟨h, rfl⟩]

example : ({ exMonitor with nBytes := 8000000001 } : Monitor (Option ℚ)).loadEntireTable .tm false = .error .memoryError ∧
    ({ exMonitor with nBytes := 8000000000 } : Monitor (Option ℚ)).loadEntireTable .camera false = .ok exMonitor.camera := by decide +kernel

/-- C92: no entries at all, or a number of values that is not a multiple of the number of entries, raise. -/
theorem C92_errors (m : Monitor ν) (column : String) (key : MonitorKey) (xs : List ν) (hx : Dict.get? (m.table key) column = some xs) :
    (m.nEvents = 0 → m.columnAsArray column (some key) none none = .error .zeroDivision) ∧
    (m.nEvents ≠ 0 → ¬ m.nEvents ∣ xs.length → m.columnAsArray column (some key) none none = .error .valueError) := by
  unfold Monitor.columnAsArray
  rw [selectColumn_all m column key _ hx]
  simp only
  refine ⟨fun h => by rw [if_pos h], fun h hd => ?_⟩
  rw [if_neg h]
  unfold reshape
  rw [if_neg]
  have e1 : (((List.range xs.length).zip xs).map Prod.snd).length = xs.length := by simp
  have e2 : ((List.range xs.length).zip xs).length = xs.length := by simp
  rw [e1, e2]
  intro he
  exact hd ⟨xs.length / m.nEvents, he⟩

example : exMonitor.columnAsArray "T_PRI" none none none = .ok [[some 20, some 30], [some 22, none]] := by decide +kernel
example : Dict.get? (exMonitor.table .tm) "T_PRI" = some ([[some 20, some 30], [some 22, none]] : List (List (Option ℚ))).flatten := by decide +kernel

/-- C92 is false for a selection of rows: selecting the first entry gives an array that still has a row for every entry, with the values of the second
device of the first entry in the row of the second entry. -/
theorem C92_false : ∃ (m : Monitor (Option ℚ)) (blocks : List (List (Option ℚ))), m.nEvents = blocks.length ∧ (∀ x ∈ blocks, x.length = 2) ∧
    Dict.get? (m.table .tm) "T_PRI" = some blocks.flatten ∧ blocks.take 1 = [[some 20, some 30]] ∧
    m.columnAsArray "T_PRI" none none (some 2) = .ok [[some 20], [some 30]] :=
  ⟨exMonitor, [[some 20, some 30], [some 22, none]], rfl, by decide, by decide +kernel, rfl, by decide +kernel⟩

/-- C92, exactly: of all selections of whole entries (from entry `i` up to entry `j`) only the selection of the whole table gives the array of the entries
selected. -/
theorem C92_exactly_partial (m : Monitor ν) (column : String) (key : MonitorKey) (blocks : List (List ν)) (b : Nat) (hb : ∀ x ∈ blocks, x.length = b)
    (hne : 0 < blocks.length) (hn : m.nEvents = blocks.length) (hx : Dict.get? (m.table key) column = some blocks.flatten) (i j : Nat) (hij : i ≤ j)
    (hj : j ≤ blocks.length) :
    m.columnAsArray column (some key) (some ((i * b : Nat) : Int)) (some ((j * b : Nat) : Int)) = .ok ((blocks.drop i).take (j - i)) ↔ i = 0 ∧ j = blocks.length := by
  have hlen : blocks.flatten.length = blocks.length * b := by
    clear hn hx hne hij hj
    induction blocks with
    | nil => simp
    | cons x xs ih =>
      rw [List.flatten_cons, List.length_append, ih fun y hy => hb y (by simp [hy]), hb x (by simp), List.length_cons]
      ring
  have hjb : j * b ≤ blocks.flatten.length := by rw [hlen]; exact Nat.mul_le_mul_right b hj
  have hib : i * b ≤ j * b := Nat.mul_le_mul_right b hij
  constructor
  · intro h
    unfold Monitor.columnAsArray at h
    cases hs : m.selectColumn column (some key) (some ((i * b : Nat) : Int)) (some ((j * b : Nat) : Int)) with
    | error e => rw [hs] at h; simp at h
    | ok s =>
      rw [hs] at h
      simp only at h
      rw [if_neg (by omega)] at h
      unfold reshape at h
      split_ifs at h
      have := congrArg List.length (Except.ok.inj h)
      simp only [List.length_map, List.length_range, List.length_take, List.length_drop] at this
      omega
  · rintro ⟨rfl, rfl⟩
    have hsame : m.selectColumn column (some key) (some ((0 * b : Nat) : Int)) (some ((blocks.length * b : Nat) : Int)) = m.selectColumn column (some key) none none := by
      rw [selectColumn_all m column key _ hx]
      unfold Monitor.selectColumn Monitor.resolveKey
      simp only
      rw [(Verif.Py.Dict.getItem_eq_ok_iff _ _ _).2 hx]
      simp only
      rw [sliceList_nat _ _ _ (by omega) hjb, ← hlen, Nat.zero_mul, List.drop_zero, Nat.sub_zero, List.take_length]
    have := (C92_partial m column key blocks b hb hne hn hx).1
    unfold Monitor.columnAsArray at this ⊢
    rw [hsame, this, List.drop_zero, Nat.sub_zero, List.take_length]

example : exMonitor.columnAsArray "T_PRI" (some .tm) (some 0) (some 4) = .ok [[some 20, some 30], [some 22, none]] ∧
    exMonitor.columnAsArray "T_PRI" (some .tm) (some 2) (some 4) = .ok [[some 22], [none]] := by decide +kernel

/-! ### C93 -/

/-- how the main number of a version compares to the one of this version of the library -/
def warningFor (n : Nat) : VersionWarning := if n < 3 then .older else if n = 3 then .none else .newer

/-- what may stand behind the numbers of a version: nothing, or an alpha or beta version, a release candidate, a post-release (also without the word) or a development
version with its number, after nothing or one of `-`, `_` and `.`; or a local version of one word of digits and small letters -/
inductive VersionTag : List Char → Prop
  | none : VersionTag []
  | tagged (sep : String) (hs : sep ∈ ["", "-", "_", "."]) (w : String) (hw : w ∈ ["a", "b", "rc", "post", "dev"]) (k : Nat) : VersionTag (sep.toList ++ w.toList ++ decimal k)
  | number (k : Nat) : VersionTag ("-".toList ++ decimal k)
  | localVersion (w : List Char) (hw : w ≠ []) (hc : ∀ c ∈ w, c ∈ "0123456789abcdefghijklmnopqrstuvwxyz".toList) : VersionTag ('+' :: w)

/-- a version: the main number, further numbers, a tag -/
def versionText (n : Nat) (ns : List Nat) (tag : List Char) : String := String.ofList (decimal n ++ (ns.flatMap fun k => '.' :: decimal k) ++ tag)

theorem releaseMajor_text (n : Nat) (ns : List Nat) (tag : List Char) (ht : VersionTag tag) : releaseMajor (versionText n ns tag) = .ok n := by
  have low : ∀ (w : List Char) (k : Nat), (∀ c ∈ w, isSpaceChar c = false ∧ c.toLower = c) → ∀ c ∈ w ++ decimal k, isSpaceChar c = false ∧ c.toLower = c := by
    intro w k hw c hc
    rcases List.mem_append.1 hc with hc | hc
    · exact hw c hc
    · exact lower_digit c (decimal_digits k c hc)
  unfold versionText
  cases ht with
  | none => exact releaseMajor_of n ns [] nil_suffix (by simp) (by simp)
  | tagged sep hs w hw k =>
    have hsep : sep.toList ∈ separator.matches' := by
      rw [separator, mem_optionally, mem_oneOf]
      simp only [List.mem_cons, List.not_mem_nil, or_false] at hs
      rcases hs with rfl | rfl | rfl | rfl
      · exact Or.inl rfl
      · exact Or.inr ⟨'-', by decide, rfl⟩
      · exact Or.inr ⟨'_', by decide, rfl⟩
      · exact Or.inr ⟨'.', by decide, rfl⟩
    have hlow : ∀ sep ∈ ["", "-", "_", "."], ∀ w ∈ ["a", "b", "rc", "post", "dev"], (∀ c ∈ sep.toList ++ w.toList, isSpaceChar c = false ∧ c.toLower = c) ∧
        sep.toList ++ w.toList ≠ [] ∧ ∀ c ∈ (sep.toList ++ w.toList).head?, isDigitChar c = false ∧ c ≠ '!' := by decide +kernel
    obtain ⟨h1, h2, h3⟩ := hlow sep hs w hw
    refine releaseMajor_of n ns _ (mem_suffix _ ?_) (low _ k h1) (fun c hc => h3 c ?_)
    · simp only [List.mem_cons, List.not_mem_nil, or_false] at hw
      rcases hw with rfl | rfl | rfl | rfl | rfl
      · exact Or.inl (mem_tagged _ "a" (by decide) _ hsep k)
      · exact Or.inl (mem_tagged _ "b" (by decide) _ hsep k)
      · exact Or.inl (mem_tagged _ "rc" (by decide) _ hsep k)
      · exact Or.inr (Or.inl (mem_tagged _ "post" (by decide) _ hsep k))
      · exact Or.inr (Or.inr (mem_tagged _ "dev" (by decide) _ hsep k))
    · rwa [List.head?_append_of_ne_nil _ h2] at hc
  | number k => exact releaseMajor_of n ns _ (mem_suffix_number k) (low _ k (by decide)) (fun c hc => by rw [← show '-' = c by simpa using hc]; decide)
  | localVersion w hw hc =>
    refine releaseMajor_of n ns _ (mem_suffix_local w hw hc) (fun c h => ?_) (fun c hc => by rw [← show '+' = c by simpa using hc]; decide)
    rcases List.mem_cons.1 h with rfl | h
    · decide
    · have : ∀ c ∈ "0123456789abcdefghijklmnopqrstuvwxyz".toList, isSpaceChar c = false ∧ c.toLower = c := by decide +kernel
      exact this c (hc c h)

theorem releaseMajor_version : releaseMajor version = .ok 3 := by decide +kernel

example : versionText 3 [1, 0] ".dev12".toList = "3.1.0.dev12" ∧ VersionTag ".dev12".toList := ⟨by decide +kernel, .tagged "." (by decide) "dev" (by decide) 12⟩

example : versionText 3 [1, 0] "-4".toList = "3.1.0-4" ∧ VersionTag "-4".toList ∧ VersionTag "b2".toList := ⟨by decide +kernel, .number 4, .tagged "" (by decide) "b" (by decide) 2⟩

/-- C93: a recorded version that begins neither with a number (or a `v`, or a space) cannot be compared, and neither can an empty one. -/
theorem C93_invalid (c : Char) (rest : List Char) (h1 : isDigitChar c = false) (h2 : isSpaceChar c = false) (h3 : c ≠ 'v') (h4 : c ≠ 'V') :
    releaseMajor (String.ofList (c :: rest)) = .error .valueError ∧ releaseMajor "" = .error .valueError :=
  ⟨releaseMajor_invalid c rest h1 h2 h3 h4, by decide +kernel⟩

example : releaseMajor "dev.3" = .error .valueError ∧ releaseMajor "3.1-x" = .error .valueError ∧ releaseMajor "3..1" = .error .valueError ∧ releaseMajor " V3.1\n" = .ok 3 ∧
    releaseMajor "1!4.0" = .ok 4 ∧ releaseMajor "3.1.0+local.7" = .ok 3 ∧ releaseMajor "3.1+a..b" = .error .valueError := by decide +kernel

/-- C93: a leading `v` and an epoch (`1!`) do not count: the number compared is the first one after them. -/
theorem C93_epoch (v : Bool) (e n : Nat) (ns : List Nat) :
    releaseMajor (String.ofList ((if v then ['v'] else []) ++ decimal e ++ '!' :: (decimal n ++ ns.flatMap fun k => '.' :: decimal k))) = .ok n := by
  have hlow : ∀ c ∈ (if v then ['v'] else []) ++ decimal e ++ '!' :: (decimal n ++ ns.flatMap fun k => '.' :: decimal k), isSpaceChar c = false ∧ c.toLower = c := by
    intro c hc
    rcases List.mem_append.1 hc with hc | hc
    · rcases List.mem_append.1 hc with hc | hc
      · cases v with
        | false => cases hc
        | true => obtain rfl := List.mem_singleton.1 hc; decide
      · exact lower_digit c (decimal_digits e c hc)
    · rcases List.mem_cons.1 hc with rfl | hc
      · decide
      · rcases List.mem_append.1 hc with hc | hc
        · exact lower_digit c (decimal_digits n c hc)
        · obtain ⟨k, -, hc⟩ := List.mem_flatMap.1 hc
          rcases List.mem_cons.1 hc with rfl | hc
          · decide
          · exact lower_digit c (decimal_digits k c hc)
  have hm : versionPattern.rmatch ((if v then ['v'] else []) ++ decimal e ++ '!' :: (decimal n ++ ns.flatMap fun k => '.' :: decimal k)) = true := by
    rw [RegularExpression.rmatch_iff_matches']
    unfold versionPattern
    rw [RegularExpression.matches'_mul, Language.mem_mul]
    refine ⟨if v then ['v'] else [], ?_, decimal e ++ '!' :: (decimal n ++ ns.flatMap fun k => '.' :: decimal k), ?_, (List.append_assoc _ _ _).symm⟩
    · rw [mem_optionally]
      cases v with
      | false => exact Or.inl rfl
      | true => exact Or.inr rfl
    · rw [RegularExpression.matches'_mul, Language.mem_mul]
      refine ⟨decimal e ++ ['!'], (mem_optionally _ _).2 (Or.inr ?_), decimal n ++ ns.flatMap fun k => '.' :: decimal k, ?_, by simp⟩
      · rw [RegularExpression.matches'_mul, Language.mem_mul]
        exact ⟨_, mem_decimal e, ['!'], rfl, rfl⟩
      · rw [RegularExpression.matches'_mul, Language.mem_mul]
        exact ⟨_, mem_release n ns, [], nil_suffix, List.append_nil _⟩
  have hafter : afterV ((if v then ['v'] else []) ++ decimal e ++ '!' :: (decimal n ++ ns.flatMap fun k => '.' :: decimal k))
      = decimal e ++ '!' :: (decimal n ++ ns.flatMap fun k => '.' :: decimal k) := by
    cases v with
    | true => rfl
    | false =>
      have hd := decimal_digits e
      cases hdec : decimal e with
      | nil => exact absurd hdec (decimal_ne_nil e)
      | cons d ds =>
        rw [hdec] at hd
        exact if_neg (by rintro rfl; exact absurd (hd 'v' (by simp)) (by decide))
  unfold releaseMajor
  rw [normalised_self _ hlow, if_pos hm]
  unfold releaseHead
  rw [hafter]
  obtain ⟨k1, k2⟩ := takeWhile_digits (decimal e) (decimal n ++ ns.flatMap fun k => '.' :: decimal k) '!' (decimal_digits e) (by decide)
  rw [k2]
  simp only [if_true]
  cases ns with
  | nil =>
    rw [List.flatMap_nil, List.append_nil, (all_digits (decimal n) (decimal_digits n)).1, parseDec_decimal]
  | cons k ns =>
    rw [List.flatMap_cons, List.cons_append, (takeWhile_digits (decimal n) _ '.' (decimal_digits n) (by decide)).1, parseDec_decimal]

example : String.ofList ((if true then ['v'] else []) ++ decimal 1 ++ '!' :: (decimal 4 ++ [0].flatMap fun k => '.' :: decimal k)) = "v1!4.0" := by decide +kernel

/-- C93, decision: opening a file warns exactly if the main version number recorded in it is not the one of the library; a file without a record counts as
version 1. -/
theorem C93_decision [DecidableEq ν] (s : Store ρ ν) (hs : (Dict.keys s).Nodup) (r : HReader ρ ν) (hr : openReader s = .ok r) :
    (∀ n ns tag, VersionTag tag → fileField s "data" "metadata" "version" = some (.str (versionText n ns tag)) →
      versionWarning r = .ok (warningFor n)) ∧
    (fileField s "data" "metadata" "version" = none → versionWarning r = .ok .older) := by
  obtain ⟨h1, -, h3⟩ := openReader_spec s hs r hr
  have hl : Listable "metadata" := by constructor <;> decide
  constructor
  · intro n ns tag htag hf
    unfold fileField at hf
    cases ha : fileAttr s "data" "metadata" with
    | none => rw [ha] at hf; cases hf
    | some d =>
      rw [ha] at hf
      have hm : getMetadata r "data" "metadata" = .ok d := by rw [h3, ha]; simp [hl]
      unfold versionWarning fileVersion
      rw [hm]
      simp only
      rw [show Dict.get? d "version" = _ from hf]
      simp only
      rw [releaseMajor_text n ns tag htag, releaseMajor_version]
      simp only [warningFor]
      split
      · rfl
      · rename_i h
        by_cases h4 : n = 3
        · rw [if_neg (by omega), if_pos h4]
        · rw [if_pos (by omega), if_neg h4]
  · intro hf
    have hv : fileVersion r = .ok "1.0.0" := by
      unfold fileVersion
      unfold fileField at hf
      cases ha : fileAttr s "data" "metadata" with
      | none =>
        have hm : getMetadata r "data" "metadata" = .error .keyError := by rw [h3, ha]
        rw [hm]
      | some d =>
        rw [ha] at hf
        have hm : getMetadata r "data" "metadata" = .ok d := by rw [h3, ha]; simp [hl]
        rw [hm]
        simp only
        rw [show Dict.get? d "version" = none from hf]
    unfold versionWarning
    rw [hv]
    simp only
    rw [show releaseMajor "1.0.0" = .ok 1 by decide +kernel, releaseMajor_version]
    rfl

/-- C93: a record of the version that is not a text raises `TypeError` when the file is opened; one that does not begin with a number `ValueError`. -/
theorem C93_errors [DecidableEq ν] (s : Store ρ ν) (hs : (Dict.keys s).Nodup) (r : HReader ρ ν) (hr : openReader s = .ok r) :
    (∀ v, fileField s "data" "metadata" "version" = some v → (∀ t, v ≠ .str t) → versionWarning r = .error .typeError) ∧
    (∀ c rest, fileField s "data" "metadata" "version" = some (.str (String.ofList (c :: rest))) → isDigitChar c = false → isSpaceChar c = false → c ≠ 'v' → c ≠ 'V' →
      versionWarning r = .error .valueError) := by
  obtain ⟨h1, -, h3⟩ := openReader_spec s hs r hr
  have hl : Listable "metadata" := by constructor <;> decide
  have hv : ∀ v, fileField s "data" "metadata" "version" = some v → ∃ d, getMetadata r "data" "metadata" = .ok d ∧ Dict.get? d "version" = some v := by
    intro v hf
    unfold fileField at hf
    cases ha : fileAttr s "data" "metadata" with
    | none => rw [ha] at hf; cases hf
    | some d => rw [ha] at hf; exact ⟨d, by rw [h3, ha]; simp [hl], hf⟩
  constructor
  · intro v hf hne
    obtain ⟨d, hd, hg⟩ := hv v hf
    unfold versionWarning fileVersion
    rw [hd]
    simp only
    rw [hg]
    cases v with
    | str t => exact absurd rfl (hne t)
    | _ => rfl
  · intro c rest hf hc h2 h3 h4
    obtain ⟨d, hd, hg⟩ := hv _ hf
    unfold versionWarning fileVersion
    rw [hd]
    simp only
    rw [hg]
    simp only
    rw [(C93_invalid c rest hc h2 h3 h4).1]

example : ∃ r, openReader ([("data", { fmt := .table, rows := [1, 2], attrs := [("metadata", [("version", .int 3)])] })] : Store Nat Unit) = .ok r ∧ versionWarning r = .error .typeError :=
  ⟨_, rfl, by decide +kernel⟩

/-- C93, what holds: no warning for a file that was written in one session of the library, whatever metadata the caller stored. (The full claim is about all
tables of a file, also after appending.) -/
theorem C93_partial [DecidableEq ν] (c : WCfg ρ) (ops : List (Op ρ ν)) (order : List String) (hu : Unmixed ops) (ho : IsOrder ops order) :
    ∃ s, writeSession c ops order = .ok s ∧ ∀ r, openReader s = .ok r → versionWarning r = .ok .none := by
  obtain ⟨s, hs, h⟩ := writeSession_spec c ops order hu ho
  refine ⟨s, hs, fun r hr => ?_⟩
  have hv := h.version
  have := (C93_decision s h.nodup r hr).1 3 [1, 0] [] .none (by rw [hv]; exact congrArg _ (congrArg _ (by decide +kernel)))
  simpa [warningFor] using this

/-- the caller stores a field `version` of their own -/
example : ∃ s, writeSession (ν := Unit) { mem := List.length, prep := id } [.append [1] "data", .addMetadata "data" "metadata" [("version", .str "9.0")]] ["data"] = .ok s ∧
    (openReader s).toOption.map (fun r => versionWarning r) = some (.ok .none) := ⟨_, rfl, by decide +kernel⟩

/-- a file of version 1 -/
def firstVersionFile : Store Nat Unit :=
  [("data", { fmt := .table, rows := [1, 2], attrs := [("metadata", [("n_bytes", .int 16), ("total_bytes", .int 16), ("version", .str "1.4.2")])] })]

/-- C93 is false after appending: the rows of the old version are still there, but the warning is gone. -/
theorem C93_false : ∃ s' r r', openReader firstVersionFile = .ok r ∧ versionWarning r = .ok .older ∧
    appendSession { mem := fun df => 8 * df.length, prep := id } firstVersionFile [.append [3] "extra"] ["extra"] = .ok s' ∧
    fileRows s' "data" = [1, 2] ∧ openReader s' = .ok r' ∧ versionWarning r' = .ok .none :=
  ⟨_, _, _, rfl, by decide +kernel, rfl, rfl, rfl, by decide +kernel⟩

end Verif.Props
