import Verif.Model.ToRoot
import Verif.Py.DictLemmas

/-! # C117: conversion to ROOT -/

namespace Verif.Props

open Verif.Py Verif.Model

/-- what the trees hold for one entry of the metadata: a text in the branches of text only, a number or time in the record only -/
def Stored (f : RootFile) (key : String) : RVal → Prop
  | .str s => (∀ t, (key, t) ∈ f.texts ↔ t = s) ∧ Dict.get? f.record key = none
  | .none => (∀ t, (key, t) ∈ f.texts ↔ t = "None") ∧ Dict.get? f.record key = none
  | .num q => (∀ t, (key, t) ∉ f.texts) ∧ Dict.get? f.record key = some (.num q)
  | .time ns => (∀ t, (key, t) ∉ f.texts) ∧ Dict.get? f.record key = some (.num ns)

/-- Every DL1 file can be converted, and different metadata give different trees. -/
def Convertible : Prop :=
  (∀ fs path d out, ∃ fs', convertToRoot fs path d out = (fs', none)) ∧
  ∀ path d d', d.nBytes ≤ 8000000000 → d.hasMonitor = false → d'.nBytes ≤ 8000000000 → d'.hasMonitor = false → (Dict.keys d.metadata).Nodup → (Dict.keys d'.metadata).Nodup →
    (convertToRoot [] path d none).1 = (convertToRoot [] path d' none).1 → d.metadata = d'.metadata

theorem splitMeta_keys (m : Dict String RVal) (key : String) (h : key ∉ Dict.keys m) : (∀ t, (key, t) ∉ (splitMeta m).1) ∧ Dict.get? (splitMeta m).2 key = none := by
  induction m with
  | nil => simp [splitMeta, Dict.get?]
  | cons kv m ih =>
    obtain ⟨k, v⟩ := kv
    simp only [Dict.keys, List.map_cons, List.mem_cons, not_or] at h
    obtain ⟨h1, h2⟩ := ih h.2
    unfold splitMeta
    cases v <;> simp only <;> constructor <;> simp [Dict.get?_cons, h.1, Ne.symm h.1, h1, h2] <;> tauto

theorem splitMeta_spec (m : Dict String RVal) (hn : (Dict.keys m).Nodup) (key : String) (v : RVal) (h : Dict.get? m key = some v) :
    match v with
    | .str s => (∀ t, (key, t) ∈ (splitMeta m).1 ↔ t = s) ∧ Dict.get? (splitMeta m).2 key = none
    | .none => (∀ t, (key, t) ∈ (splitMeta m).1 ↔ t = "None") ∧ Dict.get? (splitMeta m).2 key = none
    | w => (∀ t, (key, t) ∉ (splitMeta m).1) ∧ Dict.get? (splitMeta m).2 key = some w := by
  induction m with
  | nil => cases h
  | cons kv m ih =>
    obtain ⟨k, w⟩ := kv
    have hn' := List.nodup_cons.mp hn
    rw [Dict.get?_cons] at h
    by_cases hk : k = key
    · subst hk
      rw [if_pos rfl] at h
      cases h
      obtain ⟨h1, h2⟩ := splitMeta_keys m k hn'.1
      cases v <;> unfold splitMeta <;> simp [Dict.get?_cons, h1, h2]
    · rw [if_neg hk] at h
      have := ih hn'.2 h
      cases w <;> cases v <;> unfold splitMeta <;> simp_all [Dict.get?_cons, Ne.symm hk]

theorem get?_metaTimes (m : Dict String RVal) (key : String) :
    Dict.get? (metaTimes m) key = (Dict.get? m key).map fun v => match v with
      | .time ns => .num ns
      | w => w := by
  induction m with
  | nil => rfl
  | cons kv m ih =>
    obtain ⟨k, w⟩ := kv
    have : metaTimes ((k, w) :: m) = (k, match w with
      | .time ns => .num ns
      | w => w) :: metaTimes m := by cases w <;> rfl
    rw [this, Dict.get?_cons, Dict.get?_cons]
    split
    · rfl
    · exact ih

theorem keys_metaTimes (m : Dict String RVal) : Dict.keys (metaTimes m) = Dict.keys m := by
  induction m with
  | nil => rfl
  | cons kv m ih =>
    obtain ⟨k, w⟩ := kv
    cases w <;> exact congrArg (k :: ·) ih

/-- the default output path: the extension of the last component is replaced -/
def IsRootPath (input output : List Char) : Prop :=
  (∀ dir name ext, input = dir ++ name ++ '.' :: ext → (dir = [] ∨ ∃ d, dir = d ++ ['/']) → '/' ∉ name → '/' ∉ ext → '.' ∉ ext → (∃ c ∈ name, c ≠ '.') →
    output = dir ++ name ++ ".root".toList) ∧
  ∀ dir name, input = dir ++ name → (dir = [] ∨ ∃ d, dir = d ++ ['/']) → '/' ∉ name → '.' ∉ name → output = input ++ ".root".toList

theorem splitDir_spec (dir name : List Char) (hd : dir = [] ∨ ∃ d, dir = d ++ ['/']) (hn : '/' ∉ name) : splitDir (dir ++ name) = (dir, name) := by
  have hb : ((dir ++ name).reverse.takeWhile (· ≠ '/')).reverse = name := by
    rw [List.reverse_append, List.takeWhile_append_of_pos (by
      intro c hc
      have : c ∈ name := by simpa using hc
      simpa using fun h : c = '/' => hn (h ▸ this))]
    rcases hd with rfl | ⟨d, rfl⟩
    · simp
    · simp
  unfold splitDir
  simp only [hb]
  simp

theorem dropWhile_nil (p : Char → Bool) (l : List Char) (h : l.dropWhile p = []) : ∀ c ∈ l, p c = true := by
  induction l with
  | nil => simp
  | cons a l ih =>
    rw [List.dropWhile_cons] at h
    split at h
    · rename_i ha
      intro c hc
      rcases List.mem_cons.mp hc with rfl | hc
      · exact ha
      · exact ih h c hc
    · cases h

theorem splitext_spec (dir name ext : List Char) (hd : dir = [] ∨ ∃ d, dir = d ++ ['/']) (hn : '/' ∉ name) (he : '/' ∉ ext) (hdot : '.' ∉ ext)
    (hc : ∃ c ∈ name, c ≠ '.') : splitextRoot (dir ++ name ++ '.' :: ext) = dir ++ name := by
  unfold splitextRoot
  rw [List.append_assoc, splitDir_spec dir (name ++ '.' :: ext) hd (by simp [hn, he])]
  simp only
  have h1 : (name ++ '.' :: ext).dropWhile (· = '.') = name.dropWhile (· = '.') ++ '.' :: ext := by
    obtain ⟨c, hc1, hc2⟩ := hc
    rw [List.dropWhile_append]
    rw [if_neg]
    rw [List.isEmpty_iff]
    intro h
    exact hc2 (by simpa using dropWhile_nil _ _ h c hc1)
  have h2 : (name ++ '.' :: ext).takeWhile (· = '.') = name.takeWhile (· = '.') := by
    obtain ⟨c, hc1, hc2⟩ := hc
    rw [List.takeWhile_append]
    rw [if_neg]
    intro h
    have := List.takeWhile_append_dropWhile (p := fun c => decide (c = '.')) (l := name)
    have hl := congrArg List.length this
    rw [List.length_append, h] at hl
    have : name.dropWhile (fun c => decide (c = '.')) = [] := List.length_eq_zero_iff.mp (by omega)
    exact hc2 (by simpa using dropWhile_nil _ _ this c hc1)
  rw [h1, h2, if_pos (by simp)]
  have h3 : ((name.dropWhile (· = '.') ++ '.' :: ext).reverse.dropWhile (· ≠ '.')).drop 1 = (name.dropWhile (· = '.')).reverse := by
    rw [List.reverse_append, List.reverse_cons, List.append_assoc, List.dropWhile_append_of_pos (by
      intro c hc
      have : c ∈ ext := by simpa using hc
      simpa using fun h : c = '.' => hdot (h ▸ this))]
    simp
  rw [h3, List.reverse_reverse, List.append_assoc, List.takeWhile_append_dropWhile]

theorem splitext_none (dir name : List Char) (hd : dir = [] ∨ ∃ d, dir = d ++ ['/']) (hn : '/' ∉ name) (hdot : '.' ∉ name) :
    splitextRoot (dir ++ name) = dir ++ name := by
  unfold splitextRoot
  rw [splitDir_spec dir name hd hn]
  simp only
  rw [if_neg]
  exact fun h => hdot ((List.dropWhile_sublist _).subset h)

/-- C117 (part): a file of at most 8e9 bytes without old monitor tables. Afterwards the output path holds the trees, every other file is as before; each entry of the
metadata is stored once, texts as text, `None` as the text "None", numbers as they are and times as ns; the columns are those of the data, in order, with the
times `t_cpu` as ns; the mapping is unchanged. Missing: files with old monitor tables and the difference between `None` and "None" (`C117_false`). -/
theorem C117_partial (fs : RootFs) (path : List Char) (d : RInput) (out : Option (List Char)) (hb : d.nBytes ≤ 8000000000) (hm : d.hasMonitor = false)
    (hn : (Dict.keys d.metadata).Nodup) :
    ∃ fs' f target, convertToRoot fs path d out = (fs', none) ∧ (∀ p, out = some p → target = p) ∧ (out = none → IsRootPath path target) ∧
      Dict.get? fs' target = some f ∧ (∀ p, p ≠ target → Dict.get? fs' p = Dict.get? fs p) ∧
      (∀ key v, Dict.get? d.metadata key = some v → Stored f key v) ∧
      (∀ key, Dict.get? d.metadata key = none → (∀ t, (key, t) ∉ f.texts) ∧ Dict.get? f.record key = none) ∧
      f.data.map (·.1) = d.data.map (·.1) ∧ f.mapping = d.mapping ∧
      ∀ (i : Nat) name c, d.data[i]? = some (name, c) →
        (name ≠ "t_cpu" → f.data[i]? = some (name, c)) ∧
        ∀ l, name = "t_cpu" → c = .times l → f.data[i]? = some (name, .nums (l.map fun (n : Int) => (n : ℚ))) := by
  refine ⟨_, ⟨(splitMeta (metaTimes d.metadata)).1, (splitMeta (metaTimes d.metadata)).2, dataTimes d.data, d.mapping⟩, rootPath path out,
    by unfold convertToRoot; rw [if_neg (by omega), hm]; rfl, ?_, ?_, ?_, ?_, ?_, ?_, ?_, rfl, ?_⟩
  · rintro p rfl; rfl
  · rintro rfl
    constructor
    · rintro dir name ext rfl h1 h2 h3 h4 h5
      unfold rootPath
      simp only
      rw [splitext_spec dir name ext h1 h2 h3 h4 h5]
    · rintro dir name rfl h1 h2 h3
      unfold rootPath
      simp only
      rw [splitext_none dir name h1 h2 h3]
  · rw [Dict.get?_set_self]
  · intro p hp
    rw [Dict.get?_set_ne _ _ (Ne.symm hp)]
  · intro key v hv
    have h1 := get?_metaTimes d.metadata key
    rw [hv] at h1
    have h2 := splitMeta_spec _ (by rw [keys_metaTimes]; exact hn) key _ h1
    cases v <;> exact h2
  · intro key hk
    refine splitMeta_keys _ key ?_
    rw [keys_metaTimes]
    exact (Dict.get?_eq_none_iff _ _).mp hk
  · simp only [dataTimes, List.map_map]
    apply List.map_congr_left
    rintro ⟨name, c⟩ -
    simp only [Function.comp]
    split
    · cases c <;> rfl
    · rfl
  · intro i name c hi
    simp only [dataTimes, List.getElem?_map, hi, Option.map_some]
    constructor
    · intro h; rw [if_neg h]
    · rintro l rfl rfl; rfl

/-- C117: if the conversion fails, no file was changed; it fails for data of more than 8e9 bytes and for files with old monitor tables. -/
theorem C117_errors (fs : RootFs) (path : List Char) (d : RInput) (out : Option (List Char)) :
    ((convertToRoot fs path d out).2 ≠ none → (convertToRoot fs path d out).1 = fs) ∧
    (d.nBytes > 8000000000 → convertToRoot fs path d out = (fs, some .memoryError)) ∧
    (d.nBytes ≤ 8000000000 → d.hasMonitor = true → convertToRoot fs path d out = (fs, some .attributeError)) := by
  unfold convertToRoot
  refine ⟨?_, ?_, ?_⟩
  · intro h
    split
    · rfl
    · rename_i h1
      rw [if_neg h1] at h
      split
      · rfl
      · rename_i h2
        rw [if_neg h2] at h
        exact absurd rfl h
  · intro h; rw [if_pos h]
  · intro h h'; rw [if_neg (by omega), if_pos h']

/-- a small file -/
def smallInput (camera : RVal) (monitor : Bool) : RInput :=
  ⟨[("iev", .nums [0, 1]), ("t_cpu", .times [5, 9])], [("n_events", .num 2), ("camera_version", camera), ("date", .time 7)], [("pixel", .nums [0])], monitor, 100⟩

example := C117_partial [] "a.b/run_1_dl1.h5".toList (smallInput (.str "1.1.0") false) none (by decide) rfl (by decide)
example : (convertToRoot [] "a.b/run_1_dl1.h5".toList (smallInput .none false) none).1.map (·.1) = ["a.b/run_1_dl1.root".toList] := by decide +kernel
example := C117_errors [] "x".toList (smallInput .none true) none

/-- C117 fails as stated: a file with old monitor tables is not converted; `None` and the text "None" give the same trees. -/
theorem C117_false : ¬ Convertible ∧ (∀ fs path out, (convertToRoot fs path (smallInput .none true) out).2 = some .attributeError) ∧
    (convertToRoot [] "x".toList (smallInput .none false) none).1 = (convertToRoot [] "x".toList (smallInput (.str "None") false) none).1 := by
  have h : (convertToRoot [] "x".toList (smallInput .none false) none).1 = (convertToRoot [] "x".toList (smallInput (.str "None") false) none).1 := rfl
  refine ⟨fun hc => ?_, fun fs path out => by rw [(C117_errors fs path (smallInput .none true) out).2.2 (by decide) rfl], h⟩
  have := hc.2 "x".toList (smallInput .none false) (smallInput (.str "None") false) (by decide) rfl (by decide) rfl (by decide) (by decide) h
  exact absurd this (by decide)

end Verif.Props
