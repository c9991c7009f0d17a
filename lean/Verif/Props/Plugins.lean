import Verif.Model.Plugins
import Verif.Py.DictLemmas

/-! # C177: the packages of reducers and fitters -/

namespace Verif.Props

open Verif.Py Verif.Model

/-! ## namespaces -/

/-- the names a module binds -/
def boundBy (body : List Plain) : List String := body.map fun st => match st with | .bind n _ => n | .define n => n

theorem runBody_other (copy : Nat) (body : List Plain) (ns : Namespace) (k : String) (h : k ∉ boundBy body) : Dict.get? (runBody copy ns body) k = Dict.get? ns k := by
  induction body generalizing ns with
  | nil => rfl
  | cons st body ih =>
    simp only [boundBy, List.map_cons, List.mem_cons, not_or] at h
    obtain ⟨h1, h2⟩ := h
    change Dict.get? (runBody copy (runPlain copy ns st) body) k = _
    rw [ih _ h2]
    cases st with
    | bind n o => exact Dict.get?_set_ne _ _ (fun e => h1 e.symm)
    | define n => exact Dict.get?_set_ne _ _ (fun e => h1 e.symm)

theorem runBody_last (copy : Nat) (pre post : List Plain) (ns : Namespace) (n : String) (h : n ∉ boundBy post) :
    Dict.get? (runBody copy ns (pre ++ .define n :: post)) n = some (.made n copy) := by
  unfold runBody
  rw [List.foldl_append, List.foldl_cons]
  have := runBody_other copy post (runPlain copy (pre.foldl (runPlain copy) ns) (.define n)) n h
  unfold runBody at this
  rw [this]
  simp [runPlain]

theorem moduleAttrs_name (name file : String) (ns : Namespace) : Dict.get? (moduleAttrs name file ns) "__name__" = some (.str name) ∧
    Dict.get? (moduleAttrs name file ns) "__file__" = some (.str file) ∧ Dict.get? (moduleAttrs name file ns) "__spec__" = some (.str name) := by
  unfold moduleAttrs
  simp [Dict.get?_set]

theorem moduleAttrs_other (name file : String) (ns : Namespace) (k : String) (h : dunder k = false) : Dict.get? (moduleAttrs name file ns) k = Dict.get? ns k := by
  have h1 : "__name__" ≠ k := by rintro rfl; revert h; decide +kernel
  have h2 : "__file__" ≠ k := by rintro rfl; revert h; decide +kernel
  have h3 : "__spec__" ≠ k := by rintro rfl; revert h; decide +kernel
  unfold moduleAttrs
  rw [Dict.get?_set_ne _ _ h3, Dict.get?_set_ne _ _ h2, Dict.get?_set_ne _ _ h1]

/-- a namespace has every name once -/
def ProperNs (ns : Namespace) : Prop := (Dict.keys ns).Nodup

/-- so have those of all modules -/
def Proper (s : Interp) : Prop := ∀ name ns, Dict.get? s.modules name = some ns → ProperNs ns

theorem runBody_proper (copy : Nat) (body : List Plain) (ns : Namespace) (h : ProperNs ns) : ProperNs (runBody copy ns body) := by
  induction body generalizing ns with
  | nil => exact h
  | cons st body ih =>
    refine ih _ ?_
    cases st with
    | bind n o => exact Dict.nodup_keys_set _ _ _ h
    | define n => exact Dict.nodup_keys_set _ _ _ h

theorem moduleAttrs_proper (name file : String) (ns : Namespace) (h : ProperNs ns) : ProperNs (moduleAttrs name file ns) :=
  Dict.nodup_keys_set _ _ _ (Dict.nodup_keys_set _ _ _ (Dict.nodup_keys_set _ _ _ h))

theorem Proper.getD {s : Interp} (h : Proper s) (name : String) : ProperNs ((Dict.get? s.modules name).getD []) := by
  cases hg : Dict.get? s.modules name with
  | none => exact List.nodup_nil
  | some ns => exact h name ns hg

theorem Proper.set {s : Interp} (h : Proper s) (name : String) (ns : Namespace) (hn : ProperNs ns) (t : Interp) (ht : t.modules = Dict.set s.modules name ns) :
    Proper t := by
  intro name' ns' hg
  rw [ht, Dict.get?_set] at hg
  split at hg
  · cases hg; exact hn
  · exact h name' ns' hg

theorem loadCode_proper (s : Interp) (name file : String) (body : List Plain) (h : Proper s) : Proper (loadCode s name file body) :=
  h.set name _ (runBody_proper _ _ _ (moduleAttrs_proper _ _ _ (h.getD name))) _ rfl

theorem copyMembers_proper (pkg : String) (byKey : Bool) (name : String) (s : Interp) (h : Proper s) : Proper (copyMembers pkg byKey name s) :=
  h.set pkg _ (Dict.nodup_keys_update _ _ (h.getD pkg)) _ rfl

theorem importFull_proper (pkg : String) (listing : List (String × PluginFile)) (s t : Interp) (sub : String) (h : Proper s)
    (hi : importFull pkg listing s sub = .ok t) : Proper t := by
  unfold importFull at hi
  split at hi
  · cases hi; exact h
  · split at hi
    · next body _ =>
      have hl := loadCode_proper s (fullName pkg sub) (filePath pkg sub) body h
      cases hi
      exact hl.set pkg _ (Dict.nodup_keys_set _ _ _ (hl.getD pkg)) _ rfl
    · cases hi

theorem runImports_proper (pkg : String) (listing : List (String × PluginFile)) (imports : List (String × String)) (s t : Interp) (ns ns' : Namespace)
    (h : Proper s) (hn : ProperNs ns) (hr : runImports pkg listing imports s ns = .ok (t, ns')) : Proper t ∧ ProperNs ns' := by
  induction imports generalizing s ns with
  | nil => cases hr; exact ⟨h, hn⟩
  | cons p imports ih =>
    obtain ⟨sub, attr⟩ := p
    rw [runImports] at hr
    cases hi : importFull pkg listing s sub with
    | error e => rw [hi] at hr; cases hr
    | ok s1 =>
      rw [hi] at hr
      simp only at hr
      cases ho : Dict.get? ((Dict.get? s1.modules (fullName pkg sub)).getD []) attr with
      | none => rw [ho] at hr; cases hr
      | some o =>
        rw [ho] at hr
        exact ih s1 _ (importFull_proper _ _ _ _ _ h hi) (Dict.nodup_keys_set _ _ _ hn) hr

theorem loadPlugin_proper (pkg : String) (listing : List (String × PluginFile)) (s t : Interp) (name : String) (file : PluginFile) (h : Proper s)
    (hl : loadPlugin pkg listing s name file = .ok t) : Proper t := by
  cases file with
  | code body => cases hl; exact loadCode_proper _ _ _ _ h
  | test imports body =>
    rw [loadPlugin] at hl
    split at hl
    · cases hl
    · next s1 ns1 hr =>
      obtain ⟨h1, h2⟩ := runImports_proper _ _ _ _ _ _ _ h (moduleAttrs_proper _ _ _ (h.getD name)) hr
      cases hl
      exact h1.set name _ (runBody_proper _ _ _ h2) _ rfl

theorem get?_filter_key (d : Namespace) (p : String → Bool) (k : String) : Dict.get? (d.filter fun kv => p kv.1) k = if p k then Dict.get? d k else none := by
  induction d with
  | nil => simp [Dict.get?]
  | cons kv d ih =>
    obtain ⟨a, b⟩ := kv
    rw [List.filter_cons]
    by_cases ha : p a = true
    · rw [if_pos (by simpa using ha), Dict.get?_cons, Dict.get?_cons, ih]
      by_cases hk : a = k
      · subst hk; simp [ha]
      · simp [hk]
    · rw [if_neg (by simpa using ha), Dict.get?_cons, ih]
      by_cases hk : a = k
      · subst hk; simp [ha]
      · simp [hk]

theorem copied_proper (byKey : Bool) (name : String) (ns : Namespace) (h : ProperNs ns) : ProperNs (copied byKey name ns) := by
  unfold ProperNs Dict.keys copied
  exact (h.sublist ((List.filter_sublist).map _))

/-- what a package knows after the members of a module were copied -/
theorem pkgAttr_copyMembers (pkg : String) (byKey : Bool) (name : String) (s : Interp) (h : Proper s) (k : String) :
    pkgAttr pkg (copyMembers pkg byKey name s) k =
      (if dunder (if byKey then k else name) then none else Dict.get? ((Dict.get? s.modules name).getD []) k).or (pkgAttr pkg s k) := by
  unfold pkgAttr copyMembers
  simp only [Dict.get?_set, if_pos, Option.getD_some]
  rw [Dict.get?_update _ _ _ (copied_proper _ _ _ (h.getD name))]
  congr 1
  unfold copied
  cases byKey with
  | true =>
    simp only [if_true]
    rw [get?_filter_key _ (fun k => !dunder k)]
    cases dunder k <;> rfl
  | false =>
    simp only [Bool.false_eq_true, if_false]
    cases dunder name <;> simp

theorem pkgAttr_set_other (pkg name : String) (h : name ≠ pkg) (s t : Interp) (ns : Namespace) (ht : t.modules = Dict.set s.modules name ns) (k : String) :
    pkgAttr pkg t k = pkgAttr pkg s k := by
  unfold pkgAttr
  rw [ht, Dict.get?_set_ne _ _ h]

theorem loadAll_append (pkg : String) (byKey : Bool) (listing a b : List (String × PluginFile)) (s t : Interp)
    (h : loadAll pkg byKey listing (a ++ b) s = .ok t) : ∃ m, loadAll pkg byKey listing a s = .ok m ∧ loadAll pkg byKey listing b m = .ok t := by
  induction a generalizing s with
  | nil => exact ⟨s, rfl, h⟩
  | cons p a ih =>
    obtain ⟨name, file⟩ := p
    rw [List.cons_append, loadAll] at h
    rw [loadAll]
    cases hl : loadPlugin pkg listing s name file with
    | error e => rw [hl] at h; cases h
    | ok s1 => rw [hl] at h; exact ih _ h

theorem loadAll_proper (pkg : String) (byKey : Bool) (listing a : List (String × PluginFile)) (s t : Interp) (h : Proper s)
    (hl : loadAll pkg byKey listing a s = .ok t) : Proper t := by
  induction a generalizing s with
  | nil => cases hl; exact h
  | cons p a ih =>
    obtain ⟨name, file⟩ := p
    rw [loadAll] at hl
    cases hf : loadPlugin pkg listing s name file with
    | error e => rw [hf] at hl; cases hl
    | ok s1 =>
      rw [hf] at hl
      exact ih _ (copyMembers_proper _ _ _ _ (loadPlugin_proper _ _ _ _ _ _ h hf)) hl

/-! ## packages of modules only -/

/-- modules without test modules -/
def modulesOf (files : List (String × List Plain)) : List (String × PluginFile) := files.map fun f => (f.1, .code f.2)

/-- one turn of the loop -/
def turn (pkg : String) (byKey : Bool) (s : Interp) (f : String × List Plain) : Interp := copyMembers pkg byKey f.1 (loadCode s f.1 (filePath pkg f.1) f.2)

theorem loadAll_modules (pkg : String) (byKey : Bool) (listing : List (String × PluginFile)) (files : List (String × List Plain)) (s : Interp) :
    loadAll pkg byKey listing (modulesOf files) s = .ok (files.foldl (turn pkg byKey) s) := by
  induction files generalizing s with
  | nil => rfl
  | cons f files ih =>
    simp only [modulesOf, List.map_cons, loadAll, loadPlugin]
    exact ih _

/-- the interpreter when the loop starts -/
def started (pkg : String) (s : Interp) : Interp := { s with modules := Dict.set s.modules pkg (moduleAttrs pkg (filePath pkg "__init__") []), exported := [] }

theorem importPackage_modules (pkg : String) (byKey : Bool) (files : List (String × List Plain)) (s : Interp) :
    importPackage pkg byKey (modulesOf files) s = .ok (files.foldl (turn pkg byKey) (started pkg s)) := loadAll_modules _ _ _ _ _

theorem started_proper (pkg : String) (s : Interp) (h : Proper s) : Proper (started pkg s) :=
  h.set pkg _ (moduleAttrs_proper _ _ [] List.nodup_nil) _ rfl

theorem turn_proper (pkg : String) (byKey : Bool) (s : Interp) (f : String × List Plain) (h : Proper s) : Proper (turn pkg byKey s f) :=
  copyMembers_proper _ _ _ _ (loadCode_proper _ _ _ _ h)

theorem turns_proper (pkg : String) (byKey : Bool) (files : List (String × List Plain)) (s : Interp) (h : Proper s) : Proper (files.foldl (turn pkg byKey) s) := by
  induction files generalizing s with
  | nil => exact h
  | cons f files ih => exact ih _ (turn_proper _ _ _ _ h)

/-- modules other than the package and the one loaded stay as they are -/
theorem turn_modules (pkg : String) (byKey : Bool) (s : Interp) (f : String × List Plain) (name : String) (hp : name ≠ pkg) :
    Dict.get? (turn pkg byKey s f).modules name = if f.1 = name then
      some (runBody s.copies (moduleAttrs f.1 (filePath pkg f.1) ((Dict.get? s.modules f.1).getD [])) f.2) else Dict.get? s.modules name := by
  unfold turn copyMembers loadCode
  simp only
  rw [Dict.get?_set_ne _ _ (Ne.symm hp), Dict.get?_set]

theorem turns_modules (pkg : String) (byKey : Bool) (files : List (String × List Plain)) (s : Interp) (name : String) (hp : name ≠ pkg)
    (h : name ∉ files.map Prod.fst) : Dict.get? (files.foldl (turn pkg byKey) s).modules name = Dict.get? s.modules name := by
  induction files generalizing s with
  | nil => rfl
  | cons f files ih =>
    simp only [List.map_cons, List.mem_cons, not_or] at h
    rw [List.foldl_cons, ih _ h.2, turn_modules _ _ _ _ _ hp, if_neg (Ne.symm h.1)]

theorem turns_copies (pkg : String) (byKey : Bool) (files : List (String × List Plain)) (s : Interp) :
    (files.foldl (turn pkg byKey) s).copies = s.copies + files.length := by
  induction files generalizing s with
  | nil => rfl
  | cons f files ih =>
    rw [List.foldl_cons, ih]
    have : (turn pkg byKey s f).copies = s.copies + 1 := rfl
    rw [this, List.length_cons]; omega

/-- an attribute of the package after a turn -/
theorem turn_attr (pkg : String) (byKey : Bool) (s : Interp) (f : String × List Plain) (hs : Proper s) (hp : f.1 ≠ pkg) (k : String) :
    pkgAttr pkg (turn pkg byKey s f) k = (if dunder (if byKey then k else f.1) then none else
      Dict.get? (runBody s.copies (moduleAttrs f.1 (filePath pkg f.1) ((Dict.get? s.modules f.1).getD [])) f.2) k).or (pkgAttr pkg s k) := by
  unfold turn
  rw [pkgAttr_copyMembers _ _ _ _ (loadCode_proper _ _ _ _ hs), pkgAttr_set_other pkg f.1 hp s (loadCode s f.1 (filePath pkg f.1) f.2) _ rfl]
  congr 2
  unfold loadCode
  simp only
  rw [Dict.get?_set, if_pos rfl, Option.getD_some]

/-- C177 is false of `waveform_reducers`: after the import the package has the name, the file and the spec of its last module. -/
theorem C177_name (pkg : String) (files : List (String × List Plain)) (last : String) (body : List Plain) (s : Interp) (hs : Proper s)
    (hd : dunder last = false) (hp : last ≠ pkg) (hb : ∀ n ∈ boundBy body, dunder n = false) :
    ∃ t, importPackage pkg false (modulesOf (files ++ [(last, body)])) s = .ok t ∧ pkgAttr pkg t "__name__" = some (.str last) ∧
      pkgAttr pkg t "__file__" = some (.str (filePath pkg last)) ∧ pkgAttr pkg t "__spec__" = some (.str last) := by
  refine ⟨_, importPackage_modules _ _ _ _, ?_⟩
  rw [List.foldl_append]
  simp only [List.foldl_cons, List.foldl_nil]
  have key : ∀ k v, dunder k = true → Dict.get? (moduleAttrs last (filePath pkg last) ((Dict.get? (files.foldl (turn pkg false) (started pkg s)).modules last).getD [])) k = some v →
      pkgAttr pkg (turn pkg false (files.foldl (turn pkg false) (started pkg s)) (last, body)) k = some v := by
    intro k v hk hv
    rw [turn_attr _ _ _ _ (turns_proper _ _ _ _ (started_proper _ _ hs)) hp]
    simp only [Bool.false_eq_true, if_false, hd]
    rw [runBody_other _ _ _ _ (fun hm => by rw [hb _ hm] at hk; cases hk), hv]
    rfl
  obtain ⟨a1, a2, a3⟩ := moduleAttrs_name last (filePath pkg last) ((Dict.get? (files.foldl (turn pkg false) (started pkg s)).modules last).getD [])
  exact ⟨key _ _ (by decide +kernel) a1, key _ _ (by decide +kernel) a2, key _ _ (by decide +kernel) a3⟩

/-- a name no module binds does not become an attribute, nor changes -/
theorem turns_attr_keep (pkg : String) (byKey : Bool) (files : List (String × List Plain)) (s : Interp) (hs : Proper s) (k : String) (hk : dunder k = false)
    (hp : ∀ f ∈ files, f.1 ≠ pkg) (hb : ∀ f ∈ files, k ∉ boundBy f.2) (hm : ∀ f ∈ files, Dict.get? ((Dict.get? s.modules f.1).getD []) k = none) :
    pkgAttr pkg (files.foldl (turn pkg byKey) s) k = pkgAttr pkg s k := by
  induction files generalizing s with
  | nil => rfl
  | cons f files ih =>
    have hf : Dict.get? (runBody s.copies (moduleAttrs f.1 (filePath pkg f.1) ((Dict.get? s.modules f.1).getD [])) f.2) k = none := by
      rw [runBody_other _ _ _ _ (hb f List.mem_cons_self), moduleAttrs_other _ _ _ _ hk]
      exact hm f List.mem_cons_self
    rw [List.foldl_cons, ih _ (turn_proper _ _ _ _ hs) (fun f hf => hp f (List.mem_cons_of_mem _ hf)) (fun f hf => hb f (List.mem_cons_of_mem _ hf)) (fun g hg => ?_),
      turn_attr _ _ _ _ hs (hp f List.mem_cons_self), hf]
    · simp
    · rw [turn_modules _ _ _ _ _ (hp g (List.mem_cons_of_mem _ hg))]
      split
      · rw [Option.getD_some]; exact hf
      · exact hm g (List.mem_cons_of_mem _ hg)

/-- After the import of `waveform_reducers`, `from CHECLabPy.waveform_reducers import x` raises `ImportError` for every `x` that is not a member of one of its
modules, also when there is a module `x`. -/
theorem C177_submodules_fail (pkg : String) (files : List (String × List Plain)) (last : String) (body : List Plain) (listing : List (String × PluginFile))
    (s : Interp) (hs : Proper s) (x : String) (hx : dunder x = false) (hb : ∀ f ∈ files ++ [(last, body)], dunder f.1 = false ∧ f.1 ≠ pkg ∧ x ∉ boundBy f.2)
    (hbody : ∀ n ∈ boundBy body, dunder n = false) (hm : ∀ f ∈ files ++ [(last, body)], Dict.get? ((Dict.get? s.modules f.1).getD []) x = none)
    (hl : Dict.get? s.modules (fullName last x) = none) (hl' : fullName last x ≠ pkg ∧ fullName last x ∉ (files ++ [(last, body)]).map Prod.fst) :
    ∃ t, importPackage pkg false (modulesOf (files ++ [(last, body)])) s = .ok t ∧ fromPackage pkg listing t x = .error .importError := by
  have hlast := hb (last, body) (by simp)
  obtain ⟨t, ht, hn, -⟩ := C177_name pkg files last body s hs hlast.1 hlast.2.1 hbody
  refine ⟨t, ht, ?_⟩
  rw [importPackage_modules] at ht
  obtain rfl := Except.ok.inj ht
  have hst : pkgAttr pkg (started pkg s) x = none := by
    unfold pkgAttr started
    simp only [Dict.get?_set, if_pos, Option.getD_some]
    rw [moduleAttrs_other _ _ _ _ hx]; rfl
  have hmods : ∀ f ∈ files ++ [(last, body)], Dict.get? ((Dict.get? (started pkg s).modules f.1).getD []) x = none := by
    intro f hf
    unfold started
    simp only
    rw [Dict.get?_set_ne _ _ (Ne.symm (hb f hf).2.1)]
    exact hm f hf
  have hnone := (turns_attr_keep pkg false (files ++ [(last, body)]) (started pkg s) (started_proper _ _ hs) x hx (fun f hf => (hb f hf).2.1)
    (fun f hf => (hb f hf).2.2) hmods).trans hst
  have hfull : Dict.get? ((files ++ [(last, body)]).foldl (turn pkg false) (started pkg s)).modules (fullName last x) = none := by
    rw [turns_modules _ _ _ _ _ hl'.1 hl'.2]
    unfold started
    simp only
    rw [Dict.get?_set_ne _ _ (Ne.symm hl'.1), hl]
  unfold fromPackage
  have hsn : strOf (some (.str last)) = last := rfl
  have htry : tryImport pkg listing ((files ++ [(last, body)]).foldl (turn pkg false) (started pkg s)) last x =
      (files ++ [(last, body)]).foldl (turn pkg false) (started pkg s) := by
    unfold tryImport
    rw [if_neg hlast.2.1]
  rw [hnone, hn, hsn]
  simp only [htry, hnone, hfull]

/-- the reducers that ship -/
def reducerModules : List (String × List Plain) := reducerFiles.filterMap fun f => match f.2 with | .code body => some (f.1, body) | .test _ _ => none

theorem reducerFiles_modules : reducerFiles = modulesOf reducerModules := rfl

/-- C177 is false of the shipped package: in an interpreter that has none of its modules, `from CHECLabPy.waveform_reducers import average_wf` raises
`ImportError`, and so for each of its modules. -/
theorem C177_false (s : Interp) (hs : Proper s) (h : ∀ f ∈ reducerFiles, Dict.get? s.modules f.1 = none ∧ Dict.get? s.modules (fullName "timing" f.1) = none) :
    ∃ t, importPackage reducerPackage false reducerFiles s = .ok t ∧ ∀ f ∈ reducerFiles, fromPackage reducerPackage reducerFiles t f.1 = .error .importError := by
  have hsplit : reducerModules = reducerModules.dropLast ++ [("timing", outside ["WaveformReducer", "column", "np", "njit", "prange", "float64", "float32", "int64"] ++
     [.define "obtain_pulse_timing", .define "Timing"])] := rfl
  refine ⟨_, by rw [reducerFiles_modules]; exact importPackage_modules _ _ _ _, fun f hf => ?_⟩
  have hmem : ∀ g ∈ reducerModules, ∃ file, (g.1, file) ∈ reducerFiles := by
    intro g hg
    rw [reducerFiles_modules]
    exact ⟨.code g.2, List.mem_map.2 ⟨g, hg, rfl⟩⟩
  have facts : ∀ f ∈ reducerFiles, dunder f.1 = false ∧ (∀ g ∈ reducerModules, dunder g.1 = false ∧ g.1 ≠ reducerPackage ∧ f.1 ∉ boundBy g.2) ∧
      fullName "timing" f.1 ≠ reducerPackage ∧ fullName "timing" f.1 ∉ reducerModules.map Prod.fst := by
    have names : ∀ n ∈ reducerFiles.map Prod.fst, dunder n = false ∧ (∀ g ∈ reducerModules, dunder g.1 = false ∧ g.1 ≠ reducerPackage ∧ n ∉ boundBy g.2) ∧
      fullName "timing" n ≠ reducerPackage ∧ fullName "timing" n ∉ reducerModules.map Prod.fst := by decide +kernel
    exact fun f hf => names f.1 (List.mem_map.2 ⟨f, hf, rfl⟩)
  obtain ⟨f1, f2, f3, f4⟩ := facts f hf
  obtain ⟨t, ht, he⟩ := C177_submodules_fail reducerPackage reducerModules.dropLast "timing" _ reducerFiles s hs f.1 f1 (by rw [← hsplit]; exact f2)
    (by decide +kernel) (fun g hg => by
      rw [← hsplit] at hg
      obtain ⟨file, hfile⟩ := hmem g hg
      rw [(h _ hfile).1]; rfl) (h f hf).2 ⟨f3, by rw [← hsplit]; exact f4⟩
  rw [← hsplit, importPackage_modules] at ht
  rw [Except.ok.inj ht]
  exact he

/-- a new interpreter -/
def freshInterp : Interp := ⟨[("__main__", [("__name__", .str "__main__")])], 0, [], []⟩

theorem freshInterp_proper : Proper freshInterp := by
  intro name ns h
  unfold freshInterp at h
  simp only [Dict.get?_cons, Dict.get?_nil] at h
  split at h
  · cases h; simp [ProperNs, Dict.keys]
  · cases h

example : Proper freshInterp ∧ ∀ f ∈ reducerFiles, Dict.get? freshInterp.modules f.1 = none ∧ Dict.get? freshInterp.modules (fullName "timing" f.1) = none := by
  refine ⟨freshInterp_proper, fun f hf => ?_⟩
  have names : ∀ n ∈ reducerFiles.map Prod.fst, Dict.get? freshInterp.modules n = none ∧ Dict.get? freshInterp.modules (fullName "timing" n) = none := by
    decide +kernel
  exact names f.1 (List.mem_map.2 ⟨f, hf, rfl⟩)

/-! ## importing everything -/

theorem starImport_get (pkg : String) (s : Interp) (ns : Namespace) (k : String) :
    Dict.get? (starImport pkg s ns) k = if k ∈ s.exported then (pkgAttr pkg s k).or (Dict.get? ns k) else Dict.get? ns k := by
  unfold starImport
  induction s.exported generalizing ns with
  | nil => simp
  | cons n names ih =>
    rw [List.foldl_cons, ih]
    by_cases hk : k = n
    · subst hk
      simp only [List.mem_cons_self, if_true]
      cases hp : pkgAttr pkg s k with
      | none => simp
      | some o => simp
    · cases pkgAttr pkg s n with
      | none => simp [hk]
      | some o => simp [hk, Dict.get?_set_ne _ _ (Ne.symm hk)]

/-- C177 is false: a module that imports everything from `waveform_reducers` afterwards has the name and the file of the package's last module. -/
theorem C177_star_false (pkg : String) (files : List (String × List Plain)) (last : String) (body : List Plain) (s : Interp) (hs : Proper s) (ns : Namespace)
    (hd : dunder last = false) (hp : last ≠ pkg) (hb : ∀ n ∈ boundBy body, dunder n = false) :
    ∃ t, importPackage pkg false (modulesOf (files ++ [(last, body)])) s = .ok t ∧ Dict.get? (starImport pkg t ns) "__name__" = some (.str last) ∧
      Dict.get? (starImport pkg t ns) "__file__" = some (.str (filePath pkg last)) := by
  obtain ⟨t, ht, hn, hf, -⟩ := C177_name pkg files last body s hs hd hp hb
  refine ⟨t, ht, ?_⟩
  have hex : ∀ k v, dunder k = true → Dict.get? (moduleAttrs last (filePath pkg last) ((Dict.get? (files.foldl (turn pkg false) (started pkg s)).modules last).getD [])) k = some v →
      k ∈ t.exported := by
    intro k v hk hv
    rw [importPackage_modules, List.foldl_append] at ht
    obtain rfl := Except.ok.inj ht
    simp only [List.foldl_cons, List.foldl_nil, turn, copyMembers]
    refine List.mem_append_right _ ?_
    have : Dict.get? (copied false last ((Dict.get? (loadCode (files.foldl (turn pkg false) (started pkg s)) last (filePath pkg last) body).modules last).getD [])) k = some v := by
      unfold copied loadCode
      simp only [Dict.get?_set, if_pos, Option.getD_some, Bool.false_eq_true, if_false, hd, Bool.not_false, List.filter_true]
      rw [runBody_other _ _ _ _ (fun hm => by rw [hb _ hm] at hk; cases hk), hv]
    have hm := Dict.mem_of_get? this
    exact List.mem_map.2 ⟨_, hm, rfl⟩
  obtain ⟨a1, a2, -⟩ := moduleAttrs_name last (filePath pkg last) ((Dict.get? (files.foldl (turn pkg false) (started pkg s)).modules last).getD [])
  rw [starImport_get, starImport_get, if_pos (hex _ _ (by decide +kernel) a1), if_pos (hex _ _ (by decide +kernel) a2), hn, hf]
  exact ⟨rfl, rfl⟩

/-- the hypotheses hold for the shipped package -/
example : dunder "timing" = false ∧ "timing" ≠ reducerPackage ∧ (∃ files body, reducerFiles = modulesOf (files ++ [("timing", body)]) ∧ ∀ n ∈ boundBy body, dunder n = false) :=
  ⟨by decide +kernel, by decide +kernel, reducerModules.dropLast, _, rfl, by decide +kernel⟩

theorem loadPlugin_exported (pkg : String) (listing : List (String × PluginFile)) (s t : Interp) (name : String) (file : PluginFile)
    (h : loadPlugin pkg listing s name file = .ok t) : t.exported = s.exported := by
  have full : ∀ (s t : Interp) sub, importFull pkg listing s sub = .ok t → t.exported = s.exported := by
    intro s t sub hi
    unfold importFull at hi
    split at hi
    · cases hi; rfl
    · split at hi
      · cases hi; rfl
      · cases hi
  have imps : ∀ imports (s t : Interp) ns ns', runImports pkg listing imports s ns = .ok (t, ns') → t.exported = s.exported := by
    intro imports
    induction imports with
    | nil => intro s t ns ns' hr; cases hr; rfl
    | cons p imports ih =>
      intro s t ns ns' hr
      obtain ⟨sub, attr⟩ := p
      rw [runImports] at hr
      cases hi : importFull pkg listing s sub with
      | error e => rw [hi] at hr; cases hr
      | ok s1 =>
        rw [hi] at hr
        simp only at hr
        cases ho : Dict.get? ((Dict.get? s1.modules (fullName pkg sub)).getD []) attr with
        | none => rw [ho] at hr; cases hr
        | some o =>
          rw [ho] at hr
          rw [ih _ _ _ _ hr, full _ _ _ hi]
  cases file with
  | code body => cases h; rfl
  | test imports body =>
    rw [loadPlugin] at h
    split at h
    · cases h
    · next s1 ns1 hr => cases h; exact imps imports s s1 _ ns1 hr

theorem loadAll_exported (pkg : String) (listing a : List (String × PluginFile)) (s t : Interp) (h : loadAll pkg true listing a s = .ok t)
    (he : ∀ n ∈ s.exported, dunder n = false) : ∀ n ∈ t.exported, dunder n = false := by
  induction a generalizing s with
  | nil => cases h; exact he
  | cons p a ih =>
    obtain ⟨name, file⟩ := p
    rw [loadAll] at h
    cases hf : loadPlugin pkg listing s name file with
    | error e => rw [hf] at h; cases h
    | ok s1 =>
      rw [hf] at h
      refine ih _ h ?_
      intro n hn
      rcases List.mem_append.1 hn with hn | hn
      · rw [loadPlugin_exported _ _ _ _ _ _ hf] at hn
        exact he n hn
      · obtain ⟨kv, hkv, rfl⟩ := List.mem_map.1 hn
        have := (List.mem_filter.1 hkv).2
        simpa using this

/-- C177, partial: `from CHECLabPy.spectrum_fitters import *` never changes a name of the importing module that begins with two underscores, whatever
modules the package has. -/
theorem C177_star_partial (pkg : String) (listing : List (String × PluginFile)) (s t : Interp) (h : importPackage pkg true listing s = .ok t) (ns : Namespace)
    (k : String) (hk : dunder k = true) : Dict.get? (starImport pkg t ns) k = Dict.get? ns k := by
  have := loadAll_exported pkg listing listing _ t h (fun n hn => by cases hn)
  rw [starImport_get, if_neg (fun hm => by rw [this k hm] at hk; cases hk)]

/-! ## the name of the package of fitters -/

/-- the package keeps an attribute that begins with two underscores when the names of members decide, and its modules can then be imported from it -/
theorem loadPlugin_attr (pkg : String) (listing : List (String × PluginFile)) (s t : Interp) (name : String) (file : PluginFile) (hp : name ≠ pkg)
    (hfull : ∀ sub ∈ Dict.keys listing, fullName pkg sub ≠ pkg) (k : String) (hk : k ∉ Dict.keys listing) (h : loadPlugin pkg listing s name file = .ok t) :
    pkgAttr pkg t k = pkgAttr pkg s k := by
  have full : ∀ (s t : Interp) sub, importFull pkg listing s sub = .ok t → pkgAttr pkg t k = pkgAttr pkg s k := by
    intro s t sub hi
    unfold importFull at hi
    split at hi
    · cases hi; rfl
    · split at hi
      · next body hg =>
        have hsub : sub ∈ Dict.keys listing := (Dict.mem_keys_iff _ _).2 ⟨_, hg⟩
        cases hi
        have h1 := pkgAttr_set_other pkg (fullName pkg sub) (hfull sub hsub) s (loadCode s (fullName pkg sub) (filePath pkg sub) body) _ rfl k
        rw [← h1]
        unfold pkgAttr
        simp only [Dict.get?_set, if_pos, Option.getD_some]
        rw [if_neg (fun e => hk (by rw [← e]; exact hsub))]
      · cases hi
  have imps : ∀ imports (s t : Interp) ns ns', runImports pkg listing imports s ns = .ok (t, ns') → pkgAttr pkg t k = pkgAttr pkg s k := by
    intro imports
    induction imports with
    | nil => intro s t ns ns' hr; cases hr; rfl
    | cons p imports ih =>
      intro s t ns ns' hr
      obtain ⟨sub, attr⟩ := p
      rw [runImports] at hr
      cases hi : importFull pkg listing s sub with
      | error e => rw [hi] at hr; cases hr
      | ok s1 =>
        rw [hi] at hr
        simp only at hr
        cases ho : Dict.get? ((Dict.get? s1.modules (fullName pkg sub)).getD []) attr with
        | none => rw [ho] at hr; cases hr
        | some o =>
          rw [ho] at hr
          rw [ih _ _ _ _ hr, full _ _ _ hi]
  cases file with
  | code body => cases h; exact pkgAttr_set_other pkg name hp s _ _ rfl k
  | test imports body =>
    rw [loadPlugin] at h
    split at h
    · cases h
    · next s1 ns1 hr =>
      cases h
      rw [← imps imports s s1 _ ns1 hr]
      exact pkgAttr_set_other pkg name hp s1 _ _ rfl k

theorem loadAll_attr (pkg : String) (listing a : List (String × PluginFile)) (s t : Interp) (hs : Proper s) (hp : ∀ f ∈ a, f.1 ≠ pkg)
    (hfull : ∀ sub ∈ Dict.keys listing, fullName pkg sub ≠ pkg) (k : String) (hk : k ∉ Dict.keys listing) (hd : dunder k = true)
    (h : loadAll pkg true listing a s = .ok t) : pkgAttr pkg t k = pkgAttr pkg s k := by
  induction a generalizing s with
  | nil => cases h; rfl
  | cons p a ih =>
    obtain ⟨name, file⟩ := p
    rw [loadAll] at h
    cases hf : loadPlugin pkg listing s name file with
    | error e => rw [hf] at h; cases h
    | ok s1 =>
      rw [hf] at h
      have h1 := loadPlugin_proper _ _ _ _ _ _ hs hf
      rw [ih _ (copyMembers_proper _ _ _ _ h1) (fun f hf => hp f (List.mem_cons_of_mem _ hf)) h, pkgAttr_copyMembers _ _ _ _ h1,
        loadPlugin_attr pkg listing s s1 name file (hp _ List.mem_cons_self) hfull k hk hf]
      simp [hd]

/-- importing a module of a package by its full name makes it an attribute of the package -/
theorem importFull_attr (pkg : String) (listing : List (String × PluginFile)) (s : Interp) (sub : String) (body : List Plain)
    (hg : Dict.get? listing sub = some (.code body)) (hn : Dict.get? s.modules (fullName pkg sub) = none) :
    ∃ t, importFull pkg listing s sub = .ok t ∧ pkgAttr pkg t sub = some (.mod (fullName pkg sub)) := by
  unfold importFull
  rw [hn, hg]
  exact ⟨_, rfl, by unfold pkgAttr; simp⟩

/-- C177, partial: `spectrum_fitters` keeps its own name and file, and each of its modules can be imported from it: the attribute if there is one of that
name, else the module. -/
theorem C177_fitters_partial (pkg : String) (listing : List (String × PluginFile)) (s t : Interp) (hs : Proper s)
    (hl : ∀ sub ∈ Dict.keys listing, sub ≠ pkg ∧ fullName pkg sub ≠ pkg ∧ dunder sub = false) (h : importPackage pkg true listing s = .ok t) :
    pkgAttr pkg t "__name__" = some (.str pkg) ∧ pkgAttr pkg t "__file__" = some (.str (filePath pkg "__init__")) ∧
      ∀ sub body, Dict.get? listing sub = some (.code body) → ∃ t' o, fromPackage pkg listing t sub = .ok (t', o) ∧
        (pkgAttr pkg t sub = some o ∨ o = .mod (fullName pkg sub)) := by
  have hkeys : ∀ f ∈ listing, f.1 ∈ Dict.keys listing := fun f hf => List.mem_map.2 ⟨f, hf, rfl⟩
  have attr : ∀ k, dunder k = true → pkgAttr pkg t k = pkgAttr pkg (started pkg s) k := fun k hk =>
    loadAll_attr pkg listing listing (started pkg s) t (started_proper _ _ hs) (fun f hf => (hl _ (hkeys f hf)).1) (fun sub hsub => (hl sub hsub).2.1) k
      (fun hm => by rw [(hl k hm).2.2] at hk; cases hk) hk h
  have hst : ∀ k, pkgAttr pkg (started pkg s) k = Dict.get? (moduleAttrs pkg (filePath pkg "__init__") []) k := by
    intro k
    unfold pkgAttr started
    simp only [Dict.get?_set, if_pos, Option.getD_some]
  obtain ⟨a1, a2, -⟩ := moduleAttrs_name pkg (filePath pkg "__init__") []
  have hname : pkgAttr pkg t "__name__" = some (.str pkg) := by rw [attr _ (by decide +kernel), hst, a1]
  refine ⟨hname, by rw [attr _ (by decide +kernel), hst, a2], fun sub body hg => ?_⟩
  unfold fromPackage
  cases hp : pkgAttr pkg t sub with
  | some o => exact ⟨t, o, rfl, .inl rfl⟩
  | none =>
    have hsn : strOf (some (.str pkg)) = pkg := rfl
    simp only [hname, hsn, tryImport, if_true]
    cases hm : Dict.get? t.modules (fullName pkg sub) with
    | none =>
      obtain ⟨t', ht', ha⟩ := importFull_attr pkg listing t sub body hg hm
      rw [ht']
      simp only [ha]
      exact ⟨t', _, rfl, .inr rfl⟩
    | some ns =>
      have : importFull pkg listing t sub = .ok t := by unfold importFull; rw [hm]
      rw [this]
      simp only [hp, hm]
      exact ⟨t, _, rfl, .inr rfl⟩

/-- the shipped fitters: the hypothesis holds, and the import succeeds in a new interpreter -/
example : (∀ sub ∈ Dict.keys fitterFiles, sub ≠ fitterPackage ∧ fullName fitterPackage sub ≠ fitterPackage ∧ dunder sub = false) ∧
    ((importPackage fitterPackage true fitterFiles freshInterp).toOption.map fun t => pkgAttr fitterPackage t "__name__") = some (some (.str fitterPackage)) := by
  constructor <;> decide +kernel

/-- C177, partial: a module of either package that was not loaded under its full name can be imported by it, and then also from the package. -/
theorem C177_full_partial (pkg : String) (listing : List (String × PluginFile)) (s : Interp) (sub : String) (body : List Plain)
    (hg : Dict.get? listing sub = some (.code body)) (hn : Dict.get? s.modules (fullName pkg sub) = none) :
    ∃ t, importFull pkg listing s sub = .ok t ∧ fromPackage pkg listing t sub = .ok (t, .mod (fullName pkg sub)) := by
  obtain ⟨t, ht, ha⟩ := importFull_attr pkg listing s sub body hg hn
  exact ⟨t, ht, by unfold fromPackage; rw [ha]⟩

example : Dict.get? reducerFiles "common" = some (.code (outside ["WaveformReducer", "column", "np"] ++ [.define "Common"])) ∧
    Dict.get? freshInterp.modules (fullName reducerPackage "common") = none := ⟨rfl, by decide +kernel⟩

/-! ## classes -/

/-- the class or function of a name that was made first -/
def firstNamed (c : String) (s : Interp) : Option Obj := s.created.find? fun o => match o with | .made n _ => n == c | _ => false

theorem find_madeBy (c : String) (copy : Nat) (body : List Plain) :
    (madeBy copy body).find? (fun o => match o with | .made n _ => n == c | _ => false) = if c ∈ body.filterMap (fun st => match st with | .define n => some n | .bind _ _ => none) then
      some (.made c copy) else none := by
  induction body with
  | nil => rfl
  | cons st body ih =>
    cases st with
    | bind n o => simpa [madeBy] using ih
    | define n =>
      unfold madeBy at ih ⊢
      simp only [List.filterMap_cons, List.find?_cons]
      by_cases hn : n = c
      · subst hn; simp
      · simp only [beq_eq_false_iff_ne.2 hn, List.mem_cons, Ne.symm hn, false_or]
        exact ih

/-- classes and functions a module defines -/
def definedBy (body : List Plain) : List String := body.filterMap fun st => match st with | .define n => some n | .bind _ _ => none

theorem turns_first (pkg : String) (byKey : Bool) (files : List (String × List Plain)) (s : Interp) (c : String) :
    firstNamed c (files.foldl (turn pkg byKey) s) = (firstNamed c s).or ((files.zipIdx s.copies).findSome? fun f => if c ∈ definedBy f.1.2 then some (.made c f.2) else none) := by
  induction files generalizing s with
  | nil => simp
  | cons f files ih =>
    rw [List.foldl_cons, ih]
    have h1 : firstNamed c (turn pkg byKey s f) = (firstNamed c s).or (if c ∈ definedBy f.2 then some (.made c s.copies) else none) := by
      unfold firstNamed turn copyMembers loadCode
      simp only [List.find?_append]
      rw [find_madeBy]; rfl
    have h2 : (turn pkg byKey s f).copies = s.copies + 1 := rfl
    rw [h1, h2, List.zipIdx_cons, List.findSome?_cons, Option.or_assoc]
    congr 1
    split <;> simp_all

theorem boundBy_of_defined (body : List Plain) (c : String) (h : c ∈ definedBy body) : c ∈ boundBy body := by
  obtain ⟨st, hst, he⟩ := List.mem_filterMap.1 h
  refine List.mem_map.2 ⟨st, hst, ?_⟩
  cases st with
  | bind n o => simp at he
  | define n => simpa using he

theorem started_other (pkg : String) (s : Interp) (name : String) (h : name ≠ pkg) : Dict.get? (started pkg s).modules name = Dict.get? s.modules name :=
  Dict.get?_set_ne _ _ (Ne.symm h)

/-- what a module holds once the package is imported: what it held before under its bare name, with the names of its code -/
theorem import_module (pkg : String) (byKey : Bool) (before after : List (String × List Plain)) (name : String) (body : List Plain) (s : Interp)
    (hn : ((before ++ (name, body) :: after).map Prod.fst).Nodup) (hp : name ≠ pkg) :
    Dict.get? ((before ++ (name, body) :: after).foldl (turn pkg byKey) (started pkg s)).modules name =
      some (runBody (s.copies + before.length) (moduleAttrs name (filePath pkg name) ((Dict.get? s.modules name).getD [])) body) := by
  rw [List.map_append, List.map_cons, List.nodup_append, List.nodup_cons] at hn
  rw [List.foldl_append, List.foldl_cons, turns_modules _ _ _ _ _ hp hn.2.1.1, turn_modules _ _ _ _ _ hp, if_pos rfl, turns_copies,
    turns_modules _ _ _ _ _ hp (fun hm => hn.2.2 _ hm _ List.mem_cons_self rfl), started_other _ _ _ hp]
  rfl

/-- C177, partial: a class that only one module of the package defines, after which no other module binds its name, is one and the same object in that module
(under its bare name), as an attribute of the package, and as the first class of its name the interpreter made - the one the chain of reducers finds. -/
theorem C177_classes_partial (pkg : String) (byKey : Bool) (before after : List (String × List Plain)) (name : String) (pre post : List Plain) (c : String)
    (s : Interp) (hs : Proper s) (hp : ∀ f ∈ before ++ (name, pre ++ .define c :: post) :: after, f.1 ≠ pkg)
    (hn : ((before ++ (name, pre ++ .define c :: post) :: after).map Prod.fst).Nodup) (hd : dunder name = false) (hc : dunder c = false)
    (hpost : c ∉ boundBy post) (hbefore : ∀ f ∈ before, c ∉ definedBy f.2)
    (hafter : ∀ f ∈ after, c ∉ boundBy f.2 ∧ Dict.get? ((Dict.get? s.modules f.1).getD []) c = none) (hs0 : firstNamed c s = none) :
    ∃ t o, importPackage pkg byKey (modulesOf (before ++ (name, pre ++ .define c :: post) :: after)) s = .ok t ∧
      Dict.get? ((Dict.get? t.modules name).getD []) c = some o ∧ pkgAttr pkg t c = some o ∧ firstNamed c t = some o := by
  have hname := hp (name, pre ++ .define c :: post) (by simp)
  refine ⟨_, .made c (s.copies + before.length), importPackage_modules _ _ _ _, ?_, ?_, ?_⟩
  · rw [import_module _ _ _ _ _ _ _ hn hname, Option.getD_some, runBody_last _ _ _ _ _ hpost]
  · rw [List.foldl_append, List.foldl_cons]
    have hpr := turns_proper pkg byKey before _ (started_proper pkg s hs)
    rw [turns_attr_keep _ _ _ _ (turn_proper _ _ _ _ hpr) c hc (fun f hf => hp f (by simp [hf])) (fun f hf => (hafter f hf).1), turn_attr _ _ _ _ hpr hname]
    · rw [runBody_last _ _ _ _ _ hpost, turns_copies]
      have : dunder (if byKey then c else name) = false := by cases byKey <;> simp [hc, hd]
      simp only [this]
      rfl
    · intro f hf
      have hfp := hp f (by simp [hf])
      rw [List.map_append, List.map_cons, List.nodup_append, List.nodup_cons] at hn
      have hfm : f.1 ∈ after.map Prod.fst := List.mem_map.2 ⟨f, hf, rfl⟩
      rw [turn_modules _ _ _ _ _ hfp, if_neg (fun e : name = f.1 => hn.2.1.1 (by rw [e]; exact hfm)),
        turns_modules _ _ _ _ _ hfp (fun hm => hn.2.2 _ hm _ (List.mem_cons_of_mem _ hfm) rfl), started_other _ _ _ hfp]
      exact (hafter f hf).2
  · rw [turns_first]
    have h0 : firstNamed c (started pkg s) = none := hs0
    rw [h0, Option.none_or, List.zipIdx_append, List.findSome?_append]
    have hnone : (before.zipIdx (started pkg s).copies).findSome? (fun f => if c ∈ definedBy f.1.2 then some (Obj.made c f.2) else none) = none := by
      rw [List.findSome?_eq_none_iff]
      intro f hf
      rw [if_neg (hbefore f.1 (List.fst_mem_of_mem_zipIdx hf))]
    rw [hnone, Option.none_or, List.zipIdx_cons, List.findSome?_cons]
    have hin : c ∈ definedBy (pre ++ .define c :: post) := by simp [definedBy]
    simp only [hin, if_true]
    rfl

/-- `Common` of the shipped package -/
example : ∃ before after pre post, reducerFiles = modulesOf (before ++ ("common", pre ++ .define "Common" :: post) :: after) ∧
    (∀ f ∈ before ++ ("common", pre ++ .define "Common" :: post) :: after, f.1 ≠ reducerPackage) ∧
    ((before ++ ("common", pre ++ .define "Common" :: post) :: after).map Prod.fst).Nodup ∧ "Common" ∉ boundBy post ∧ (∀ f ∈ before, "Common" ∉ definedBy f.2) ∧
    (∀ f ∈ after, "Common" ∉ boundBy f.2 ∧ Dict.get? ((Dict.get? freshInterp.modules f.1).getD []) "Common" = none) ∧ firstNamed "Common" freshInterp = none :=
  ⟨reducerModules.take 1, reducerModules.drop 2, outside ["WaveformReducer", "column", "np"], [], rfl, by decide +kernel, by decide +kernel, by decide +kernel,
    by decide +kernel, by decide +kernel, by decide +kernel⟩

theorem importFull_new (pkg : String) (listing : List (String × PluginFile)) (s : Interp) (sub : String) (body : List Plain)
    (hg : Dict.get? listing sub = some (.code body)) (hn : Dict.get? s.modules (fullName pkg sub) = none) :
    importFull pkg listing s sub = .ok { loadCode s (fullName pkg sub) (filePath pkg sub) body with
      modules := Dict.set (loadCode s (fullName pkg sub) (filePath pkg sub) body).modules pkg
        (Dict.set ((Dict.get? (loadCode s (fullName pkg sub) (filePath pkg sub) body).modules pkg).getD []) sub (.mod (fullName pkg sub))) } := by
  unfold importFull
  rw [hn, hg]

/-- C177 is false: importing a module by its full name after the package executes it again. The class it then holds is another object than the one of the
package and of the chain, whatever was loaded before. -/
theorem C177_copies_false (pkg : String) (byKey : Bool) (before after : List (String × List Plain)) (name : String) (pre post : List Plain) (c : String)
    (s : Interp) (hn : ((before ++ (name, pre ++ .define c :: post) :: after).map Prod.fst).Nodup) (hp : name ≠ pkg) (hpost : c ∉ boundBy post)
    (hfull : fullName pkg name ≠ pkg ∧ fullName pkg name ∉ (before ++ (name, pre ++ .define c :: post) :: after).map Prod.fst)
    (hs : Dict.get? s.modules (fullName pkg name) = none) :
    ∃ t u a b, importPackage pkg byKey (modulesOf (before ++ (name, pre ++ .define c :: post) :: after)) s = .ok t ∧
      importFull pkg (modulesOf (before ++ (name, pre ++ .define c :: post) :: after)) t name = .ok u ∧
      Dict.get? ((Dict.get? u.modules name).getD []) c = some a ∧ Dict.get? ((Dict.get? u.modules (fullName pkg name)).getD []) c = some b ∧ a ≠ b := by
  have hget : Dict.get? (modulesOf (before ++ (name, pre ++ .define c :: post) :: after)) name = some (.code (pre ++ .define c :: post)) := by
    refine Dict.get?_of_mem_nodup ?_ (List.mem_map.2 ⟨(name, pre ++ .define c :: post), by simp, rfl⟩)
    unfold Dict.keys modulesOf
    rw [List.map_map]
    exact hn
  have hnot : Dict.get? ((before ++ (name, pre ++ .define c :: post) :: after).foldl (turn pkg byKey) (started pkg s)).modules (fullName pkg name) = none := by
    rw [turns_modules _ _ _ _ _ hfull.1 hfull.2, started_other _ _ _ hfull.1, hs]
  refine ⟨_, _, .made c (s.copies + before.length), .made c (s.copies + (before ++ (name, pre ++ .define c :: post) :: after).length), importPackage_modules _ _ _ _,
    importFull_new _ _ _ _ _ hget hnot, ?_, ?_, ?_⟩
  · have hne : fullName pkg name ≠ name := fun e => hfull.2 (by rw [e]; simp)
    simp only [loadCode]
    rw [Dict.get?_set_ne _ _ (Ne.symm hp), Dict.get?_set_ne _ _ hne, import_module _ _ _ _ _ _ _ hn hp, Option.getD_some, runBody_last _ _ _ _ _ hpost]
  · simp only [loadCode]
    rw [Dict.get?_set_ne _ _ (Ne.symm hfull.1), Dict.get?_set_self, Option.getD_some, runBody_last _ _ _ _ _ hpost, turns_copies]
    rfl
  · intro e
    injection e with _ e
    simp at e

/-- the shipped package -/
example : fullName reducerPackage "common" ≠ reducerPackage ∧ fullName reducerPackage "common" ∉ reducerModules.map Prod.fst ∧
    Dict.get? freshInterp.modules (fullName reducerPackage "common") = none := by
  decide +kernel

/-- C177 is false of the shipped fitters: the tests of the package import the fitters again, so `CHECLabPy.spectrum_fitters.SiPMGentileFitter` is not the class made
first, which the factory of fitters takes. -/
theorem C177_fitters_false : ∃ t a b, importPackage fitterPackage true fitterFiles freshInterp = .ok t ∧ pkgAttr fitterPackage t "SiPMGentileFitter" = some a ∧
    firstNamed "SiPMGentileFitter" t = some b ∧ a ≠ b := by
  have h : ((importPackage fitterPackage true fitterFiles freshInterp).toOption.map fun t => (pkgAttr fitterPackage t "SiPMGentileFitter", firstNamed "SiPMGentileFitter" t)) =
      some (some (.made "SiPMGentileFitter" 3), some (.made "SiPMGentileFitter" 0)) := by decide +kernel
  cases ht : importPackage fitterPackage true fitterFiles freshInterp with
  | error e => rw [ht] at h; cases h
  | ok t =>
    rw [ht] at h
    have h := Option.some.inj h
    exact ⟨t, _, _, rfl, congrArg Prod.fst h, congrArg Prod.snd h, by simp⟩

/-! ## modules of the user -/

/-- C177 is false: a module of the user that has the bare name of a module of the package is executed into. It gets the name and the file of the package's
module and its classes; only the names the code does not bind stay. -/
theorem C177_hijack_false (pkg : String) (byKey : Bool) (before after : List (String × List Plain)) (name : String) (body : List Plain) (s : Interp) (user : Namespace)
    (hu : Dict.get? s.modules name = some user) (hn : ((before ++ (name, body) :: after).map Prod.fst).Nodup) (hp : name ≠ pkg) (hb : ∀ n ∈ boundBy body, dunder n = false) :
    ∃ t ns, importPackage pkg byKey (modulesOf (before ++ (name, body) :: after)) s = .ok t ∧ Dict.get? t.modules name = some ns ∧
      Dict.get? ns "__file__" = some (.str (filePath pkg name)) ∧ (∀ k, dunder k = false → k ∉ boundBy body → Dict.get? ns k = Dict.get? user k) ∧
      ∀ pre c post, body = pre ++ .define c :: post → c ∉ boundBy post → ∃ copy, Dict.get? ns c = some (.made c copy) ∧ s.copies ≤ copy := by
  refine ⟨_, _, importPackage_modules _ _ _ _, import_module _ _ _ _ _ _ _ hn hp, ?_, fun k hk hkb => ?_, fun pre c post hbody hc => ?_⟩
  · rw [runBody_other _ _ _ _ (fun hm => by have := hb _ hm; revert this; decide +kernel)]
    exact (moduleAttrs_name _ _ _).2.1
  · rw [runBody_other _ _ _ _ hkb, moduleAttrs_other _ _ _ _ hk, hu]; rfl
  · rw [hbody]
    exact ⟨_, runBody_last _ _ _ _ _ hc, by omega⟩

/-- a user's `common.py` that was imported before -/
example : ∃ (s : Interp) (user : Namespace), Dict.get? s.modules "common" = some user ∧ Dict.get? user "__file__" = some (.str "/home/user/common") ∧
    Dict.get? user "settings" = some (.ext "settings") :=
  ⟨⟨[("common", [("__file__", .str "/home/user/common"), ("settings", .ext "settings")])], 0, [], []⟩, _, rfl, rfl, rfl⟩

/-- C177, partial: modules with other names are left alone. -/
theorem C177_others_partial (pkg : String) (byKey : Bool) (files : List (String × List Plain)) (s : Interp) (name : String) (hp : name ≠ pkg)
    (h : name ∉ files.map Prod.fst) : ∃ t, importPackage pkg byKey (modulesOf files) s = .ok t ∧ Dict.get? t.modules name = Dict.get? s.modules name :=
  ⟨_, importPackage_modules _ _ _ _, by rw [turns_modules _ _ _ _ _ hp h, started_other _ _ _ hp]⟩

example : "__main__" ≠ reducerPackage ∧ "__main__" ∉ reducerModules.map Prod.fst := by decide +kernel

/-! ## classes made by an import -/

/-- between two moments, classes and functions were only added, each of an execution that is neither earlier nor later -/
def Added (s t : Interp) : Prop :=
  s.copies ≤ t.copies ∧ ∃ new, t.created = s.created ++ new ∧ ∀ o ∈ new, ∃ c k, o = .made c k ∧ s.copies ≤ k ∧ k < t.copies

theorem Added.refl (s t : Interp) (h : t.copies = s.copies) (h' : t.created = s.created) : Added s t := ⟨Nat.le_of_eq h.symm, [], by simp [h'], by simp⟩

theorem Added.trans {s t u : Interp} (h : Added s t) (h' : Added t u) : Added s u := by
  obtain ⟨l, a, ha, ka⟩ := h
  obtain ⟨l', b, hb, kb⟩ := h'
  refine ⟨Nat.le_trans l l', a ++ b, by rw [hb, ha, List.append_assoc], fun o ho => ?_⟩
  rcases List.mem_append.1 ho with ho | ho
  · obtain ⟨c, k, rfl, h1, h2⟩ := ka o ho
    exact ⟨c, k, rfl, h1, by omega⟩
  · obtain ⟨c, k, rfl, h1, h2⟩ := kb o ho
    exact ⟨c, k, rfl, by omega, h2⟩

theorem Added.run (s t : Interp) (body : List Plain) (h : t.copies = s.copies + 1) (h' : t.created = s.created ++ madeBy s.copies body) : Added s t := by
  refine ⟨by omega, _, h', fun o ho => ?_⟩
  obtain ⟨st, -, hst⟩ := List.mem_filterMap.1 ho
  cases st with
  | bind n o => cases hst
  | define n =>
    obtain rfl := Option.some.inj hst
    exact ⟨n, s.copies, rfl, Nat.le_refl _, by omega⟩

theorem importFull_added (pkg : String) (listing : List (String × PluginFile)) (s t : Interp) (sub : String) (h : importFull pkg listing s sub = .ok t) : Added s t := by
  unfold importFull at h
  split at h
  · cases h; exact Added.refl _ _ rfl rfl
  · split at h
    · rename_i body _
      cases h
      exact Added.run _ _ body rfl rfl
    · cases h

theorem runImports_added (pkg : String) (listing : List (String × PluginFile)) (imports : List (String × String)) (s t : Interp) (ns ns' : Namespace)
    (h : runImports pkg listing imports s ns = .ok (t, ns')) : Added s t := by
  induction imports generalizing s ns with
  | nil => cases h; exact Added.refl _ _ rfl rfl
  | cons i rest ih =>
    obtain ⟨sub, attr⟩ := i
    unfold runImports at h
    split at h
    · cases h
    · rename_i u hu
      split at h
      · cases h
      · exact (importFull_added _ _ _ _ _ hu).trans (ih _ _ h)

theorem loadPlugin_added (pkg : String) (listing : List (String × PluginFile)) (s t : Interp) (name : String) (file : PluginFile)
    (h : loadPlugin pkg listing s name file = .ok t) : Added s t := by
  cases file with
  | code body => cases h; exact Added.run _ _ body rfl rfl
  | test imports body =>
    unfold loadPlugin at h
    simp only at h
    split at h
    · cases h
    · rename_i u ns hu
      cases h
      exact (runImports_added _ _ _ _ _ _ _ hu).trans (Added.run _ _ body rfl rfl)

theorem loadAll_added (pkg : String) (byKey : Bool) (listing a : List (String × PluginFile)) (s t : Interp) (h : loadAll pkg byKey listing a s = .ok t) : Added s t := by
  induction a generalizing s with
  | nil => cases h; exact Added.refl _ _ rfl rfl
  | cons f rest ih =>
    obtain ⟨name, file⟩ := f
    unfold loadAll at h
    split at h
    · cases h
    · rename_i u hu
      exact ((loadPlugin_added _ _ _ _ _ _ hu).trans (Added.refl u (copyMembers pkg byKey name u) rfl rfl)).trans (ih _ h)

/-- C177: importing either package makes new classes and functions only. Those made before stay, none of them is made again, and no later execution can make one of
these objects. -/
theorem C177_new (pkg : String) (byKey : Bool) (listing : List (String × PluginFile)) (s t : Interp) (hs : ∀ c k, Obj.made c k ∈ s.created → k < s.copies)
    (h : importPackage pkg byKey listing s = .ok t) :
    (∃ new, t.created = s.created ++ new ∧ ∀ o ∈ new, o ∉ s.created) ∧ ∀ c k, Obj.made c k ∈ t.created → k < t.copies := by
  obtain ⟨hle, new, hnew, hk⟩ : Added s t := (Added.refl s (started pkg s) rfl rfl).trans (loadAll_added pkg byKey listing listing _ _ h)
  refine ⟨⟨new, hnew, fun o ho hm => ?_⟩, fun c k hm => ?_⟩
  · obtain ⟨c, k, rfl, h1, -⟩ := hk o ho
    have := hs c k hm
    omega
  · rw [hnew] at hm
    rcases List.mem_append.1 hm with hm | hm
    · have := hs c k hm
      omega
    · obtain ⟨c', k', he, -, h2⟩ := hk _ hm
      cases he
      exact h2

/-- non-vacuity: the shipped fitters, in a new interpreter -/
example : ∃ t, importPackage fitterPackage true fitterFiles freshInterp = .ok t ∧ (∀ c k, Obj.made c k ∈ freshInterp.created → k < freshInterp.copies) := by
  obtain ⟨t, -, -, h, -⟩ := C177_fitters_false
  exact ⟨t, h, by simp [freshInterp]⟩

end Verif.Props
