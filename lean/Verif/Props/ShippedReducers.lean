import Verif.Model.ShippedReducers
import Verif.Props.Chain
import Mathlib.Data.List.Forall2

/-!
# C121, C122: what the reducers of the chain need and read, and the recorded configuration
-/

namespace Verif.Props

open Verif.Py Verif.Model Verif.Spec Verif.Lemmas

/-! ## C121 -/

/-- classes that use a reference pulse -/
def UsesPulse (c : Shipped) : Prop := c ∈ [.crossCorrelation, .crossCorrelationLocal, .crossCorrelationNeighbour, Shipped.nnls]

/-- classes that average over the neighbours of a pixel -/
def UsesNeighbours (c : Shipped) : Prop := c ∈ [.crossCorrelationNeighbour, .ctapipeNeighbour, Shipped.slidingWindowNeighbour]

/-- classes with a sliding window of ones -/
def UsesOnes (c : Shipped) : Prop := c ∈ [.slidingWindow, .slidingWindowLocal, Shipped.slidingWindowNeighbour]

/-- classes that call ctapipe -/
def UsesCtapipe (c : Shipped) : Prop := UsesNeighbours c ∨ UsesOnes c ∨ c = .ctapipeLocal

/-- what a class needs is there -/
structure Usable (env : REnv) (cfg : Config RSetting) (c : Shipped) : Prop where
  pulse : UsesPulse c → ∃ p, Dict.get? cfg "reference_pulse_path" = some (.text p) ∧ env.isPulse p = true
  mapping : UsesNeighbours c → Dict.get? cfg "mapping" = some .mapping
  ctapipe : UsesCtapipe c → env.ctapipe = true
  ones : UsesOnes c → ∀ v, Dict.get? cfg "window_size" = some v → (∃ b, v = .flag b) ∨ ∃ n : Nat, v = .num n

theorem needPulse_ok {α : Type} (env : REnv) (henv : env.isPulse "" = false) (cfg : Config RSetting) (x : Except Err α) (w : α) :
    needPulse env cfg x = .ok w ↔ (∃ p, Dict.get? cfg "reference_pulse_path" = some (.text p) ∧ env.isPulse p = true) ∧ x = .ok w := by
  unfold needPulse
  cases h : Dict.get? cfg "reference_pulse_path" with
  | none => simp
  | some v =>
    cases v with
    | flag b => cases b <;> simp [RSetting.truthy]
    | num i => by_cases hi : i = 0 <;> simp [RSetting.truthy, hi]
    | mapping => simp [RSetting.truthy]
    | none => simp [RSetting.truthy]
    | text s =>
      by_cases hs : s = ""
      · subst hs; simp [RSetting.truthy, henv]
      · simp only [RSetting.truthy, hs, ne_eq, not_false_eq_true, decide_true, if_true]
        by_cases hp : env.isPulse s = true <;> simp [hp]

theorem needNnlsPulse_ok {α : Type} (env : REnv) (cfg : Config RSetting) (x : Except Err α) (w : α) :
    needNnlsPulse env cfg x = .ok w ↔ (∃ p, Dict.get? cfg "reference_pulse_path" = some (.text p) ∧ env.isPulse p = true) ∧ x = .ok w := by
  unfold needNnlsPulse
  cases h : Dict.get? cfg "reference_pulse_path" with
  | none => simp
  | some v => cases v with
    | text s => by_cases hp : env.isPulse s = true <;> simp [hp]
    | _ => simp

theorem needMapping_ok {α : Type} (cfg : Config RSetting) (x : Except Err α) (w : α) :
    needMapping cfg x = .ok w ↔ Dict.get? cfg "mapping" = some .mapping ∧ x = .ok w := by
  unfold needMapping
  cases h : Dict.get? cfg "mapping" with
  | none => simp
  | some v => cases v <;> simp

theorem needCtapipe_ok {α : Type} (env : REnv) (x w : α) : needCtapipe env x = .ok w ↔ env.ctapipe = true ∧ x = w := by
  unfold needCtapipe
  by_cases h : env.ctapipe = true <;> simp [h]

theorem slidingInit_ok (env : REnv) (cfg : Config RSetting) :
    (∃ w, slidingInit env cfg = .ok w) ↔ env.ctapipe = true ∧
      ∀ v, Dict.get? cfg "window_size" = some v → (∃ b, v = .flag b) ∨ ∃ n : Nat, v = .num n := by
  unfold slidingInit slidingSize getSetting
  cases h : Dict.get? cfg "window_size" with
  | none => simp [needCtapipe_ok]
  | some v =>
    cases v with
    | num i =>
      by_cases hi : i < 0
      · simp only [Option.getD_some, hi, if_true, reduceCtorEq, exists_false, false_iff, not_and, Option.some.injEq, forall_eq',
          false_or, RSetting.num.injEq]
        rintro - ⟨n, hn⟩
        omega
      · simp only [Option.getD_some, hi, if_false, needCtapipe_ok, exists_and_left, exists_eq', and_true, Option.some.injEq, forall_eq',
          reduceCtorEq, exists_false, false_or, RSetting.num.injEq, iff_self_and]
        exact fun _ => ⟨i.toNat, by omega⟩
    | flag b => simp [needCtapipe_ok]
    | text s => simp
    | mapping => simp
    | none => simp

theorem init_ok_iff (env : REnv) (henv : env.isPulse "" = false) (cfg : Config RSetting) (c : Shipped) :
    (∃ w, c.init env cfg = .ok w) ↔ Usable env cfg c := by
  have hu : Usable env cfg c ↔ (UsesPulse c → ∃ p, Dict.get? cfg "reference_pulse_path" = some (.text p) ∧ env.isPulse p = true) ∧
      (UsesNeighbours c → Dict.get? cfg "mapping" = some .mapping) ∧ (UsesCtapipe c → env.ctapipe = true) ∧
      (UsesOnes c → ∀ v, Dict.get? cfg "window_size" = some v → (∃ b, v = .flag b) ∨ ∃ n : Nat, v = .num n) :=
    ⟨fun h => ⟨h.1, h.2, h.3, h.4⟩, fun h => ⟨h.1, h.2.1, h.2.2.1, h.2.2.2⟩⟩
  rw [hu]
  cases c with
  | slidingWindowNeighbour =>
    unfold Shipped.init UsesPulse UsesCtapipe UsesNeighbours UsesOnes
    constructor
    · rintro ⟨w, hw⟩
      cases h : slidingInit env cfg with
      | error e => simp [h] at hw
      | ok w' =>
        rw [h] at hw
        simp only [needMapping_ok] at hw
        have := (slidingInit_ok env cfg).1 ⟨w', h⟩
        refine ⟨by simp, fun _ => hw.1, fun _ => this.1, fun _ => this.2⟩
    · rintro ⟨-, h1, h2, h3⟩
      have h1 := h1 (by simp)
      have h2 := h2 (by simp)
      obtain ⟨w, hw⟩ := (slidingInit_ok env cfg).2 ⟨h2, h3 (by simp)⟩
      rw [hw]
      exact ⟨w, (needMapping_ok _ _ _).2 ⟨h1, (needCtapipe_ok _ _ _).2 ⟨h2, rfl⟩⟩⟩
  | slidingWindow =>
    unfold Shipped.init UsesPulse UsesCtapipe UsesNeighbours UsesOnes
    simp only [slidingInit_ok]
    simp
  | slidingWindowLocal =>
    unfold Shipped.init UsesPulse UsesCtapipe UsesNeighbours UsesOnes
    simp only [slidingInit_ok]
    simp
  | _ =>
    unfold Shipped.init UsesPulse UsesCtapipe UsesNeighbours UsesOnes
    simp [needPulse_ok _ henv, needNnlsPulse_ok, needMapping_ok, needCtapipe_ok]

/-- the configuration has an entry for the column that is none of `false`, `0`, the empty text and `null` -/
def SwitchedOn (cfg : Config RSetting) (col : String) : Prop :=
  ∃ v, Dict.get? cfg col = some v ∧ v ≠ .flag false ∧ v ≠ .num 0 ∧ v ≠ .text "" ∧ v ≠ .none

theorem enabled_iff (cfg : Config RSetting) (col : String) : Enabled RSetting.truthy cfg col ↔ SwitchedOn cfg col := by
  unfold Enabled SwitchedOn
  refine exists_congr fun v => and_congr_right fun _ => ?_
  cases v <;> simp [RSetting.truthy]

/-- a column of the class is switched on -/
def Wanted (cfg : Config RSetting) (c : Shipped) : Prop := ∃ col ∈ c.columns, SwitchedOn cfg col

theorem active_iff (cfg : Config RSetting) (c : Shipped) :
    (getActiveColumns RSetting.truthy c.columns true cfg).length > 0 ↔ Wanted cfg c := by
  rw [gt_iff_lt, List.length_pos_iff_exists_mem]
  unfold Wanted getActiveColumns
  simp only [← enabled_iff]
  unfold Enabled
  constructor
  · rintro ⟨a, ha⟩
    obtain ⟨h1, h2⟩ := List.mem_filter.1 ha
    refine ⟨a, h1, ?_⟩
    cases h : Dict.get? cfg a with
    | none => rw [h] at h2; simp at h2
    | some v => rw [h] at h2; exact ⟨v, rfl, h2⟩
  · rintro ⟨a, h1, v, hv, ht⟩
    exact ⟨a, List.mem_filter.2 ⟨h1, by rw [hv]; exact ht⟩⟩

theorem buildLoop_shipped (env : REnv) (cfg : Config RSetting) (order : List Shipped) :
    (∃ chain, buildLoop RSetting.truthy cfg (order.map (Shipped.cls env)) = .ok chain) ↔
      ∀ c ∈ order, Wanted cfg c → "self" ∉ Dict.keys cfg ∧ ∃ w, c.init env cfg = .ok w := by
  induction order with
  | nil => simp [buildLoop]
  | cons c order ih =>
    rw [List.map_cons, buildLoop, show (Shipped.cls env c).columns = c.columns from rfl]
    by_cases hw : Wanted cfg c
    · rw [if_pos ((active_iff cfg c).2 hw)]
      by_cases hself : "self" ∈ Dict.keys cfg
      · have : instantiate RSetting.truthy (c.cls env) cfg = .error .typeError := by
          unfold instantiate; rw [if_pos hself]
        rw [this]
        simp only [reduceCtorEq, exists_false, false_iff]
        intro h
        exact (h c (by simp) hw).1 hself
      cases hi : c.init env cfg with
      | error e =>
        have : instantiate RSetting.truthy (c.cls env) cfg = .error e := by
          unfold instantiate; rw [if_neg hself, show (c.cls env).init cfg = .error e from hi]
        rw [this]
        simp only [reduceCtorEq, exists_false, false_iff]
        intro h
        obtain ⟨-, w, h⟩ := h c (by simp) hw
        rw [hi] at h; cases h
      | ok w =>
        have : ∃ r, instantiate RSetting.truthy (c.cls env) cfg = .ok r := by
          unfold instantiate; rw [if_neg hself, show (c.cls env).init cfg = .ok w from hi]; exact ⟨_, rfl⟩
        obtain ⟨r, hr⟩ := this
        rw [hr]
        constructor
        · rintro ⟨chain, h⟩ c' hc' hw'
          rcases List.mem_cons.1 hc' with rfl | hc'
          · exact ⟨hself, w, hi⟩
          · refine ih.1 ?_ c' hc' hw'
            cases hb : buildLoop RSetting.truthy cfg (order.map (Shipped.cls env)) with
            | error e => simp [hb] at h
            | ok rs => exact ⟨rs, rfl⟩
        · intro h
          obtain ⟨rs, hrs⟩ := ih.2 fun c' hc' => h c' (by simp [hc'])
          rw [hrs]
          exact ⟨_, rfl⟩
    · rw [if_neg fun h => hw ((active_iff cfg c).1 h), ih]
      constructor
      · intro h c' hc' hw'
        rcases List.mem_cons.1 hc' with rfl | hc'
        · exact absurd hw' hw
        · exact h c' hc' hw'
      · intro h c' hc'; exact h c' (by simp [hc'])

theorem columns_ne (c : Shipped) : "_disable_by_default" ∉ c.columns := by cases c <;> decide

theorem wanted_erase (cfg : Config RSetting) (c : Shipped) : Wanted (Dict.erase cfg "_disable_by_default") c ↔ Wanted cfg c := by
  unfold Wanted SwitchedOn
  constructor <;> rintro ⟨col, hc, v, hv, ht⟩ <;> refine ⟨col, hc, v, ?_, ht⟩
  · rwa [get?_erase_ne _ _ _ (fun h => columns_ne c (by rw [h]; exact hc))] at hv
  · rwa [get?_erase_ne _ _ _ (fun h => columns_ne c (by rw [h]; exact hc))]

theorem usable_erase (env : REnv) (cfg : Config RSetting) (c : Shipped) : Usable env (Dict.erase cfg "_disable_by_default") c ↔ Usable env cfg c := by
  have h1 : Dict.get? (Dict.erase cfg "_disable_by_default") "reference_pulse_path" = Dict.get? cfg "reference_pulse_path" :=
    get?_erase_ne _ _ _ (by decide)
  have h2 : Dict.get? (Dict.erase cfg "_disable_by_default") "mapping" = Dict.get? cfg "mapping" := get?_erase_ne _ _ _ (by decide)
  have h3 : Dict.get? (Dict.erase cfg "_disable_by_default") "window_size" = Dict.get? cfg "window_size" := get?_erase_ne _ _ _ (by decide)
  constructor <;> rintro ⟨a, b, c, d⟩
  · rw [h1] at a; rw [h2] at b; rw [h3] at d; exact ⟨a, b, c, d⟩
  · rw [← h1] at a; rw [← h2] at b; rw [← h3] at d; exact ⟨a, b, c, d⟩

theorem self_erase (cfg : Config RSetting) : "self" ∈ Dict.keys (Dict.erase cfg "_disable_by_default") ↔ "self" ∈ Dict.keys cfg := by
  rw [Dict.mem_keys_iff, Dict.mem_keys_iff, get?_erase_ne _ _ _ (by decide)]

/-- C121: a chain can be built exactly when every class with a column that is switched on has what it needs; what the other classes
need does not matter. The configuration must not have entries with the names of parameters of Python's own (`cls`, and `self` if there is
anything to construct) or of the two numbers given beside it. -/
theorem C121_builds_iff (env : REnv) (henv : env.isPulse "" = false) (order : List Shipped) (load : String → Yaml RSetting)
    (path : Option String) (kwargs config : Config RSetting)
    (hc : chainConfig (defaultColumns.map fun kv => (kv.1, RSetting.flag kv.2)) load path kwargs = .ok config) :
    (∃ chain, shippedChain env order load path kwargs = .ok chain) ↔
      "n_pixels" ∉ Dict.keys config ∧ "n_samples" ∉ Dict.keys config ∧ "cls" ∉ Dict.keys config ∧
      ∀ c ∈ order, Wanted config c → "self" ∉ Dict.keys config ∧ Usable env config c := by
  unfold shippedChain newChain
  rw [hc]
  simp only [buildChain]
  by_cases hk : "n_pixels" ∈ Dict.keys config ∨ "n_samples" ∈ Dict.keys config ∨ "cls" ∈ Dict.keys config
  · rw [if_pos hk]
    simp only [reduceCtorEq, exists_false, false_iff]
    rintro ⟨h1, h2, h3, -⟩
    rcases hk with hk | hk | hk
    exacts [h1 hk, h2 hk, h3 hk]
  · rw [if_neg hk, buildLoop_shipped]
    push Not at hk
    constructor
    · intro h
      refine ⟨hk.1, hk.2.1, hk.2.2, fun c hc' hw => ?_⟩
      obtain ⟨h1, h2⟩ := h c hc' ((wanted_erase config c).2 hw)
      exact ⟨fun hs => h1 ((self_erase config).2 hs), (usable_erase env config c).1 ((init_ok_iff env henv _ c).1 h2)⟩
    · rintro ⟨-, -, -, h⟩ c hc' hw
      obtain ⟨h1, h2⟩ := h c hc' ((wanted_erase config c).1 hw)
      exact ⟨fun hs => h1 ((self_erase config).1 hs), (init_ok_iff env henv _ c).2 ((usable_erase env config c).2 h2)⟩

/-- C121: an ImportError of a constructor means that it uses ctapipe and ctapipe is not there; and without ctapipe a class that uses it and has
everything else gives this error. -/
theorem C121_import_error (env : REnv) (henv : env.isPulse "" = false) (cfg : Config RSetting) (c : Shipped) :
    (c.init env cfg = .error .importError → UsesCtapipe c ∧ env.ctapipe = false) ∧
    (UsesCtapipe c → env.ctapipe = false → Usable { env with ctapipe := true } cfg c → c.init env cfg = .error .importError) := by
  have hmap : ∀ {α : Type} (x : Except Err α), needMapping cfg x = .error .importError → x = .error .importError := by
    intro α x h
    unfold needMapping at h
    split at h <;> first | exact h | (simp at h)
  have hpulse : ∀ {α : Type} (x : Except Err α), needPulse env cfg x = .error .importError → x = .error .importError := by
    intro α x h
    unfold needPulse at h
    repeat' split at h
    all_goals first | exact h | (simp at h)
  have hnnls : ∀ {α : Type} (x : Except Err α), needNnlsPulse env cfg x = .error .importError → x = .error .importError := by
    intro α x h
    unfold needNnlsPulse at h
    repeat' split at h
    all_goals first | exact h | (simp at h)
  have hct : ∀ {α : Type} (x : α), needCtapipe env x = .error .importError → env.ctapipe = false := by
    intro α x h
    unfold needCtapipe at h
    by_cases hc : env.ctapipe = true
    · simp [hc] at h
    · simpa using hc
  have hsl : slidingInit env cfg = .error .importError → env.ctapipe = false := by
    intro h
    unfold slidingInit at h
    cases hs : slidingSize cfg with
    | error e =>
      rw [hs] at h
      simp only [Except.error.injEq] at h
      subst h
      unfold slidingSize at hs
      repeat' split at hs
      all_goals simp at hs
    | ok w => rw [hs] at h; exact hct _ h
  constructor
  · intro h
    cases c with
    | averageWf => simp [Shipped.init] at h
    | common => simp [Shipped.init] at h
    | flagFlashers => simp [Shipped.init] at h
    | saturation => simp [Shipped.init] at h
    | spAmplitude => simp [Shipped.init] at h
    | timing => simp [Shipped.init] at h
    | crossCorrelation => have := hpulse _ h; simp at this
    | crossCorrelationLocal => have := hpulse _ h; simp at this
    | nnls => have := hnnls _ h; simp at this
    | crossCorrelationNeighbour => exact ⟨by simp [UsesCtapipe, UsesNeighbours], hct _ (hmap _ (hpulse _ h))⟩
    | ctapipeLocal => exact ⟨by simp [UsesCtapipe], hct _ h⟩
    | ctapipeNeighbour => exact ⟨by simp [UsesCtapipe, UsesNeighbours], hct _ (hmap _ h)⟩
    | slidingWindow => exact ⟨by simp [UsesCtapipe, UsesOnes], hsl h⟩
    | slidingWindowLocal => exact ⟨by simp [UsesCtapipe, UsesOnes], hsl h⟩
    | slidingWindowNeighbour =>
      refine ⟨by simp [UsesCtapipe, UsesOnes], ?_⟩
      unfold Shipped.init at h
      cases hs : slidingInit env cfg with
      | error e =>
        rw [hs] at h
        simp only [Except.error.injEq] at h
        subst h
        exact hsl hs
      | ok w => rw [hs] at h; exact hct _ (hmap _ h)
  · intro hu he ho
    have hsl' : UsesOnes c → slidingInit env cfg = .error .importError := by
      intro h1
      obtain ⟨w, hw⟩ := (slidingInit_ok { env with ctapipe := true } cfg).2 ⟨rfl, ho.ones h1⟩
      unfold slidingInit at hw ⊢
      cases hs : slidingSize cfg with
      | error e => rw [hs] at hw; simp at hw
      | ok w => simp [needCtapipe, he]
    have hp' : UsesPulse c → ∀ {α : Type} (x : Except Err α), needPulse env cfg x = x := by
      intro h1 α x
      obtain ⟨p, h2, h3⟩ := ho.pulse h1
      have h3 : env.isPulse p = true := h3
      have hne : p ≠ "" := by rintro rfl; rw [henv] at h3; cases h3
      unfold needPulse
      simp [h2, RSetting.truthy, hne, h3]
    have hm' : UsesNeighbours c → ∀ {α : Type} (x : Except Err α), needMapping cfg x = x := by
      intro h1 α x
      unfold needMapping
      rw [ho.mapping h1]
    cases c with
    | crossCorrelationNeighbour =>
      unfold Shipped.init
      refine (hp' (by simp [UsesPulse]) _).trans ((hm' (by simp [UsesNeighbours]) _).trans ?_)
      simp [needCtapipe, he]
    | ctapipeLocal => simp [Shipped.init, needCtapipe, he]
    | ctapipeNeighbour =>
      refine (hm' (by simp [UsesNeighbours]) _).trans ?_
      simp [needCtapipe, he]
    | slidingWindow => exact hsl' (by simp [UsesOnes])
    | slidingWindowLocal => exact hsl' (by simp [UsesOnes])
    | slidingWindowNeighbour =>
      unfold Shipped.init
      rw [hsl' (by simp [UsesOnes])]
    | _ => simp [UsesCtapipe, UsesNeighbours, UsesOnes] at hu

/-- the documented defaults of `window_size` and `window_shift`; `none` where a class has no such setting -/
def defaultWindow : Shipped → Option Int × Option Int
  | .averageWf => (some 6, some 3)
  | .ctapipeLocal => (some 6, some 3)
  | .ctapipeNeighbour => (some 6, some 3)
  | .nnls => (some 20, some (-25))
  | .saturation => (none, some 4)
  | .slidingWindow => (some 8, none)
  | .slidingWindowLocal => (some 8, none)
  | .slidingWindowNeighbour => (some 8, none)
  | .timing => (some 8, some 4)
  | _ => (none, none)

/-- a setting: the entry of the configuration, or the default of the class -/
def settingOf (cfg : Config RSetting) (key : String) (default : Option Int) : Option RSetting :=
  match default, Dict.get? cfg key with
  | none, _ => none
  | some _, some v => some v
  | some d, none => some (.num d)

theorem init_settings (env : REnv) (henv : env.isPulse "" = false) (cfg : Config RSetting) (c : Shipped) (w : RWindow)
    (h : c.init env cfg = .ok w) :
    w.size = settingOf cfg "window_size" (defaultWindow c).1 ∧ w.shift = settingOf cfg "window_shift" (defaultWindow c).2 := by
  have hw : ∀ a b : Int, (windowOf cfg a b).size = settingOf cfg "window_size" (some a) ∧
      (windowOf cfg a b).shift = settingOf cfg "window_shift" (some b) := by
    intro a b
    unfold windowOf getSetting settingOf
    constructor
    · cases Dict.get? cfg "window_size" <;> rfl
    · cases Dict.get? cfg "window_shift" <;> rfl
  have hs : ∀ w, slidingInit env cfg = .ok w → w.size = settingOf cfg "window_size" (some 8) ∧ w.shift = none := by
    intro w h
    unfold slidingInit at h
    cases hs : slidingSize cfg with
    | error e => rw [hs] at h; simp at h
    | ok v =>
      rw [hs] at h
      obtain ⟨-, rfl⟩ := (needCtapipe_ok _ _ _).1 h
      refine ⟨?_, rfl⟩
      unfold slidingSize getSetting at hs
      unfold settingOf
      cases hg : Dict.get? cfg "window_size" with
      | none => rw [hg] at hs; simp at hs; simp [hs]
      | some u =>
        rw [hg] at hs
        cases u with
        | num i =>
          by_cases hi : i < 0
          · simp [hi] at hs
          · simp [hi] at hs; simp [hs]
        | flag b => simp at hs; simp [hs]
        | _ => simp at hs
  cases c with
  | averageWf => cases h; exact hw 6 3
  | timing => cases h; exact hw 8 4
  | nnls => obtain ⟨-, h⟩ := (needNnlsPulse_ok _ _ _ _).1 h; cases h; exact hw 20 (-25)
  | ctapipeLocal => obtain ⟨-, rfl⟩ := (needCtapipe_ok _ _ _).1 h; exact hw 6 3
  | ctapipeNeighbour =>
    obtain ⟨-, h⟩ := (needMapping_ok _ _ _).1 h
    obtain ⟨-, rfl⟩ := (needCtapipe_ok _ _ _).1 h; exact hw 6 3
  | saturation => cases h; exact ⟨rfl, (hw 0 4).2⟩
  | slidingWindow => exact hs w h
  | slidingWindowLocal => exact hs w h
  | slidingWindowNeighbour =>
    unfold Shipped.init at h
    cases hsi : slidingInit env cfg with
    | error e => rw [hsi] at h; simp at h
    | ok w' =>
      rw [hsi] at h
      obtain ⟨-, h⟩ := (needMapping_ok _ _ _).1 h
      obtain ⟨-, rfl⟩ := (needCtapipe_ok _ _ _).1 h
      exact hs _ hsi
  | common => cases h; exact ⟨rfl, rfl⟩
  | flagFlashers => cases h; exact ⟨rfl, rfl⟩
  | spAmplitude => cases h; exact ⟨rfl, rfl⟩
  | crossCorrelation => obtain ⟨-, h⟩ := (needPulse_ok _ henv _ _ _).1 h; cases h; exact ⟨rfl, rfl⟩
  | crossCorrelationLocal => obtain ⟨-, h⟩ := (needPulse_ok _ henv _ _ _).1 h; cases h; exact ⟨rfl, rfl⟩
  | crossCorrelationNeighbour =>
    obtain ⟨-, h⟩ := (needPulse_ok _ henv _ _ _).1 h
    obtain ⟨-, h⟩ := (needMapping_ok _ _ _).1 h
    obtain ⟨-, rfl⟩ := (needCtapipe_ok _ _ _).1 h
    exact ⟨rfl, rfl⟩

/-- C121: in a chain that was built, every reducer belongs to a class that is wanted and has the window of the configuration, or else the defaults of
its class; an entry of the configuration holds for all classes with such a window. -/
theorem C121_settings (env : REnv) (henv : env.isPulse "" = false) (order : List Shipped) (load : String → Yaml RSetting)
    (path : Option String) (kwargs config : Config RSetting)
    (hc : chainConfig (defaultColumns.map fun kv => (kv.1, RSetting.flag kv.2)) load path kwargs = .ok config)
    (chain : List (Reducer RSetting RWindow Unit Unit)) (h : shippedChain env order load path kwargs = .ok chain) :
    ∃ cs : List Shipped, cs.Sublist order ∧ (∀ c, c ∈ cs ↔ c ∈ order ∧ Wanted config c) ∧
      List.Forall₂ (fun c r => r.state.size = settingOf config "window_size" (defaultWindow c).1 ∧
        r.state.shift = settingOf config "window_shift" (defaultWindow c).2 ∧
        ∀ col, col ∈ r.active ↔ col ∈ c.columns ∧ SwitchedOn config col) cs chain := by
  unfold shippedChain newChain at h
  rw [hc] at h
  simp only [buildChain] at h
  split at h
  · simp at h
  · obtain ⟨h1, h2⟩ := buildLoop_ok _ _ _ _ h
    obtain ⟨cfg, hcfg⟩ : ∃ cfg, cfg = Dict.erase config "_disable_by_default" := ⟨_, rfl⟩
    rw [← hcfg] at h1 h2
    have hg : ∀ k, "_disable_by_default" ≠ k → Dict.get? cfg k = Dict.get? config k := by
      intro k hk; rw [hcfg]; exact get?_erase_ne _ _ _ hk
    refine ⟨order.filter fun c => decide ((getActiveColumns RSetting.truthy c.columns true cfg).length > 0), List.filter_sublist, fun c => ?_, ?_⟩
    · rw [List.mem_filter, decide_eq_true_iff, active_iff, hcfg, wanted_erase]
    · rw [List.filter_map] at h1
      have hl : (order.filter fun c => decide ((getActiveColumns RSetting.truthy c.columns true cfg).length > 0)).map (Shipped.cls env) =
          chain.map Reducer.cls := by rw [h1]; rfl
      refine List.forall₂_iff_get.2 ⟨by simpa using congrArg List.length hl, fun i hi hi' => ?_⟩
      simp only [List.get_eq_getElem] at *
      obtain ⟨c, hcc⟩ : ∃ c, c = (order.filter fun c => decide ((getActiveColumns RSetting.truthy c.columns true cfg).length > 0))[i] := ⟨_, rfl⟩
      obtain ⟨r, hrr⟩ : ∃ r, r = chain[i] := ⟨_, rfl⟩
      rw [← hcc, ← hrr]
      have hcls : r.cls = c.cls env := by
        have := congrArg (fun l => l[i]?) hl
        simp only [List.getElem?_map, List.getElem?_eq_getElem hi, List.getElem?_eq_getElem hi', Option.map_some, Option.some.injEq] at this
        rw [hcc, hrr, this]
      obtain ⟨-, ha, hst⟩ := h2 r (by rw [hrr]; exact List.getElem_mem hi')
      rw [hcls] at ha hst
      have hset := init_settings env henv cfg c r.state hst
      unfold settingOf at hset ⊢
      rw [hg "window_size" (by decide), hg "window_shift" (by decide)] at hset
      refine ⟨hset.1, hset.2, fun col => ?_⟩
      rw [ha]
      show col ∈ getActiveColumns RSetting.truthy c.columns true cfg ↔ _
      rw [← enabled_iff]
      unfold getActiveColumns Enabled
      rw [List.mem_filter]
      refine and_congr_right fun hcol => ?_
      rw [hg col fun h => columns_ne c (by rw [h]; exact hcol)]
      cases Dict.get? config col with
      | none => simp
      | some v => simp

/-- C121: with a reference pulse, the default columns need neither ctapipe nor a mapping. -/
theorem C121_default (env : REnv) (henv : env.isPulse "" = false) (order : List Shipped) (load : String → Yaml RSetting) (p : String)
    (hp : env.isPulse p = true) :
    ∃ chain, shippedChain env order load none [("reference_pulse_path", .text p)] = .ok chain := by
  obtain ⟨config, hc, hg⟩ := C11_without_file (defaultColumns.map fun kv => (kv.1, RSetting.flag kv.2)) [("reference_pulse_path", .text p)] load none
    (Or.inl rfl) (by decide) (by simp [Dict.keys])
  have hdef : ∀ k v, k ≠ "reference_pulse_path" → Dict.get? config k = some v →
      Dict.get? (defaultColumns.map fun kv => (kv.1, RSetting.flag kv.2)) k = some v := by
    intro k v hk h
    rw [hg k] at h
    simpa [Dict.get?, hk.symm] using h
  have hkey : ∀ k, k ∈ Dict.keys config → k = "reference_pulse_path" ∨ k ∈ Dict.keys defaultColumns := by
    intro k hk
    obtain ⟨v, hv⟩ := (Dict.mem_keys_iff _ _).1 hk
    by_cases h : k = "reference_pulse_path"
    · exact Or.inl h
    · right
      have h2 := (Dict.mem_keys_iff _ _).2 ⟨v, hdef k v h hv⟩
      unfold Dict.keys at h2 ⊢
      rw [List.map_map] at h2
      exact h2
  refine (C121_builds_iff env henv order load none _ config hc).2 ⟨?_, ?_, ?_, fun c _ hw => ⟨?_, ?_⟩⟩
  · intro h; rcases hkey _ h with h | h <;> revert h <;> decide
  · intro h; rcases hkey _ h with h | h <;> revert h <;> decide
  · intro h; rcases hkey _ h with h | h <;> revert h <;> decide
  · intro h; rcases hkey _ h with h | h <;> revert h <;> decide
  · have hpulse : ∃ q, Dict.get? config "reference_pulse_path" = some (.text q) ∧ env.isPulse q = true :=
      ⟨p, by rw [hg]; simp [Dict.get?], hp⟩
    have hin : c ∈ [Shipped.averageWf, .common, .crossCorrelation, .saturation] := by
      obtain ⟨col, hcol, hon⟩ := hw
      obtain ⟨v, hv, ht⟩ := (enabled_iff config col).2 hon
      have hne : col ≠ "reference_pulse_path" := by rintro rfl; revert hcol; cases c <;> decide
      have hv := hdef col v hne hv
      have hb : (c.columns.any fun col => match Dict.get? (defaultColumns.map fun kv => (kv.1, RSetting.flag kv.2)) col with
          | some v => v.truthy | none => false) = true :=
        List.any_eq_true.2 ⟨col, hcol, by rw [hv]; exact ht⟩
      revert hb
      clear hcol
      cases c <;> decide
    simp only [List.mem_cons, List.not_mem_nil, or_false] at hin
    rcases hin with rfl | rfl | rfl | rfl <;>
      exact ⟨by simp [UsesPulse, hpulse], by simp [UsesNeighbours], by simp [UsesCtapipe, UsesNeighbours, UsesOnes], by simp [UsesOnes]⟩

/-- the columns of a DL1 file extracted without a configuration -/
def plainColumns : List String :=
  ["t_averagewf", "charge_averagewf", "baseline_start_mean", "baseline_start_rms", "baseline_end_mean", "baseline_end_rms", "waveform_mean",
   "waveform_rms", "t_cc", "charge_cc", "height_cc", "saturation_sum"]

theorem default_on (k : String) : Dict.get? (defaultColumns.map fun kv => (kv.1, RSetting.flag kv.2)) k = some (.flag true) ↔ k ∈ plainColumns := by
  constructor
  · intro h
    have hm : k ∈ ((defaultColumns.filter fun kv => kv.2).map Prod.fst) := by
      have hmem := Dict.mem_of_get? h
      obtain ⟨kv, hkv, he⟩ := List.mem_map.1 hmem
      obtain ⟨rfl, he2⟩ := Prod.mk.inj he
      exact List.mem_map.2 ⟨kv, List.mem_filter.2 ⟨hkv, by injection he2⟩, rfl⟩
    have hsub : ∀ x ∈ ((defaultColumns.filter fun kv => kv.2).map Prod.fst), x ∈ plainColumns := by decide +kernel
    exact hsub k hm
  · intro h
    have hall : ∀ x ∈ plainColumns, Dict.get? (defaultColumns.map fun kv => (kv.1, RSetting.flag kv.2)) x = some (.flag true) := by decide +kernel
    exact hall k h

/-- C121: with all reducers of the package and a reference pulse, exactly these columns are extracted by default. -/
theorem C121_default_columns (env : REnv) (henv : env.isPulse "" = false) (order : List Shipped) (hall : ∀ c, c ∈ order) (load : String → Yaml RSetting) (p : String)
    (chain : List (Reducer RSetting RWindow Unit Unit)) (h : shippedChain env order load none [("reference_pulse_path", .text p)] = .ok chain) (col : String) :
    (∃ r ∈ chain, col ∈ r.active) ↔ col ∈ plainColumns := by
  obtain ⟨config, hc, hg⟩ := C11_without_file (defaultColumns.map fun kv => (kv.1, RSetting.flag kv.2)) [("reference_pulse_path", .text p)] load none
    (Or.inl rfl) (by decide) (by simp [Dict.keys])
  obtain ⟨cs, -, hcs, hf⟩ := C121_settings env henv order load none _ config hc chain h
  have hen : ∀ c : Shipped, ∀ col ∈ c.columns, (SwitchedOn config col ↔ col ∈ plainColumns) := by
    intro c col hcol
    rw [← enabled_iff]
    have hne : col ≠ "reference_pulse_path" := by rintro rfl; revert hcol; cases c <;> decide
    have hget : Dict.get? config col = Dict.get? (defaultColumns.map fun kv => (kv.1, RSetting.flag kv.2)) col := by
      rw [hg col]; simp [Dict.get?, hne.symm]
    unfold Enabled
    rw [hget, ← default_on col]
    constructor
    · rintro ⟨v, hv, ht⟩
      obtain ⟨kv, -, he⟩ := List.mem_map.1 (Dict.mem_of_get? hv)
      obtain ⟨rfl, rfl⟩ := Prod.mk.inj he
      rw [hv]
      have : kv.2 = true := ht
      rw [this]
    · intro hv
      exact ⟨_, hv, rfl⟩
  rw [List.forall₂_iff_get] at hf
  obtain ⟨hl, hf⟩ := hf
  constructor
  · rintro ⟨r, hr, hcol⟩
    obtain ⟨i, hi, rfl⟩ := List.getElem_of_mem hr
    have := ((hf i (by omega) hi).2.2 col).1 hcol
    exact (hen _ col this.1).1 this.2
  · intro hcol
    have hown : ∃ c : Shipped, col ∈ c.columns := by
      have hsub : ∀ x ∈ plainColumns, x ∈ Shipped.averageWf.columns ∨ x ∈ Shipped.common.columns ∨ x ∈ Shipped.crossCorrelation.columns ∨ x ∈ Shipped.saturation.columns := by
        decide +kernel
      rcases hsub col hcol with h | h | h | h
      exacts [⟨_, h⟩, ⟨_, h⟩, ⟨_, h⟩, ⟨_, h⟩]
    obtain ⟨c, hcc⟩ := hown
    have henb := (hen c col hcc).2 hcol
    obtain ⟨i, hi, he⟩ := List.getElem_of_mem ((hcs c).2 ⟨hall c, col, hcc, henb⟩)
    refine ⟨chain[i], List.getElem_mem _, ((hf i hi (by omega)).2.2 col).2 ⟨?_, henb⟩⟩
    rw [List.get_eq_getElem, he]; exact hcc

/-- all classes of the package -/
def allShipped : List Shipped :=
  [.averageWf, .common, .crossCorrelation, .crossCorrelationLocal, .crossCorrelationNeighbour, .ctapipeLocal, .ctapipeNeighbour, .flagFlashers, .nnls,
    .saturation, .slidingWindow, .slidingWindowLocal, .slidingWindowNeighbour, .spAmplitude, .timing]

theorem allShipped_mem (c : Shipped) : c ∈ allShipped := by cases c <;> decide

/-- C121: every column of the table of defaults is calculated by exactly one reducer of the package, so that every switch of the table has an effect;
the only columns missing in the table are `waveform_max` and `flasher_unit`. -/
theorem C121_owners : (∀ k ∈ Dict.keys defaultColumns, ∃! c : Shipped, k ∈ c.columns) ∧
    ∀ (c : Shipped), ∀ k ∈ c.columns, k ∉ Dict.keys defaultColumns ↔ k = "waveform_max" ∨ k = "flasher_unit" := by
  constructor
  · have h1 : ∀ k ∈ Dict.keys defaultColumns, ∃ c ∈ allShipped, k ∈ c.columns ∧ ∀ c' ∈ allShipped, k ∈ c'.columns → c' = c := by decide +kernel
    intro k hk
    obtain ⟨c, -, h2, h3⟩ := h1 k hk
    exact ⟨c, h2, fun c' hc => h3 c' (allShipped_mem c') hc⟩
  · intro c
    cases c <;> decide +kernel

/-- C121: without a reference pulse, the default columns cannot be extracted: ValueError. -/
theorem C121_default_no_pulse (env : REnv) (load : String → Yaml RSetting) (rest : List Shipped) :
    shippedChain env (.crossCorrelation :: rest) load none [] = .error .valueError := by rfl

/-- C121: a negative number of samples for the windows of ones is a `ValueError`, a text or a mapping a `TypeError`, for each of the three classes, with or without ctapipe. -/
theorem C121_window_errors (env : REnv) (cfg : Config RSetting) (c : Shipped) (hc : UsesOnes c) :
    (∀ i : Int, i < 0 → Dict.get? cfg "window_size" = some (.num i) → c.init env cfg = .error .valueError) ∧
    (∀ v, (v = .mapping ∨ ∃ t, v = .text t) → Dict.get? cfg "window_size" = some v → c.init env cfg = .error .typeError) := by
  have h1 : ∀ e, slidingSize cfg = .error e → c.init env cfg = .error e := by
    intro e he
    unfold UsesOnes at hc
    simp only [List.mem_cons, List.not_mem_nil, or_false] at hc
    rcases hc with rfl | rfl | rfl <;> simp [Shipped.init, slidingInit, he]
  constructor
  · intro i hi hg
    refine h1 _ ?_
    unfold slidingSize getSetting
    rw [hg]
    simp [hi]
  · intro v hv hg
    refine h1 _ ?_
    unfold slidingSize getSetting
    rw [hg]
    rcases hv with rfl | ⟨t, rfl⟩ <;> rfl

example : UsesOnes .slidingWindowNeighbour ∧ Dict.get? [("window_size", RSetting.num (-1))] "window_size" = some (.num (-1)) := by
  refine ⟨?_, by decide⟩
  unfold UsesOnes
  decide

/-- C121: without a camera the three classes that look at neighbours are a `ValueError`, if what the class they extend needs is there. -/
theorem C121_no_camera (env : REnv) (cfg : Config RSetting) (hm : Dict.get? cfg "mapping" = none ∨ Dict.get? cfg "mapping" = some .none) :
    Shipped.ctapipeNeighbour.init env cfg = .error .valueError ∧
    (∀ w, Shipped.crossCorrelation.init env cfg = .ok w → Shipped.crossCorrelationNeighbour.init env cfg = .error .valueError) ∧
    (∀ w, Shipped.slidingWindow.init env cfg = .ok w → Shipped.slidingWindowNeighbour.init env cfg = .error .valueError) := by
  have hn : ∀ {α : Type} (x : Except Err α), needMapping cfg x = .error .valueError := by
    intro α x
    unfold needMapping
    rcases hm with h | h <;> rw [h]
  refine ⟨hn _, fun w hw => ?_, fun w hw => ?_⟩
  · simp only [Shipped.init] at hw ⊢
    rw [hn]
    unfold needPulse at hw ⊢
    split at hw
    · split at hw
      · rename_i ht
        rw [if_pos ht]
        split at hw
        · split at hw
          · rename_i hp
            simp only [if_pos hp]
          · cases hw
        · cases hw
      · cases hw
    · cases hw
  · simp only [Shipped.init] at hw ⊢
    rw [hw]
    exact hn _

example : Shipped.slidingWindow.init ⟨true, fun _ => true⟩ [("mapping", .none)] = .ok ⟨some (.num 8), none⟩ := by decide +kernel

/-- C121: without a path the three classes of the cross-correlation are a `ValueError`, while the extraction of pulses tries to open the path and is an `IOError`; a path that
cannot be read is an `IOError` for all of them. -/
theorem C121_pulse_errors (env : REnv) (cfg : Config RSetting) (c : Shipped) (hc : UsesPulse c) :
    (Dict.get? cfg "reference_pulse_path" = none → c.init env cfg = .error (if c = .nnls then .ioError else .valueError)) ∧
    ∀ p, p ≠ "" → env.isPulse p = false → Dict.get? cfg "reference_pulse_path" = some (.text p) → c.init env cfg = .error .ioError := by
  unfold UsesPulse at hc
  simp only [List.mem_cons, List.not_mem_nil, or_false] at hc
  constructor
  · intro h
    rcases hc with rfl | rfl | rfl | rfl <;> simp [Shipped.init, needPulse, needNnlsPulse, h]
  · intro p hp he h
    have ht : RSetting.truthy (.text p) = true := by simp [RSetting.truthy, hp]
    rcases hc with rfl | rfl | rfl | rfl <;> simp [Shipped.init, needPulse, needNnlsPulse, h, he, ht]

example : UsesPulse .nnls ∧ Dict.get? ([] : Config RSetting) "reference_pulse_path" = none := by
  refine ⟨?_, rfl⟩
  unfold UsesPulse
  decide

/-- ctapipe is missing, one pulse file exists -/
def plainEnv : REnv := ⟨false, fun p => p == "pulse.txt"⟩

example : plainEnv.isPulse "" = false ∧ plainEnv.isPulse "pulse.txt" = true ∧
    shippedChain plainEnv [.timing, .ctapipeLocal] (fun _ => .map [("charge_local", .flag true)]) (some "c.yml") [] = .error .importError ∧
    (∃ chain, shippedChain plainEnv [.timing, .ctapipeLocal, .saturation] (fun _ => .map [("fwhm", .flag true), ("saturation_sum", .num 1), ("window_shift", .num 7)])
      (some "c.yml") [] = .ok chain ∧ chain.map (·.state) = [⟨some (.num 8), some (.num 7)⟩, ⟨none, some (.num 7)⟩]) := by
  refine ⟨rfl, rfl, rfl, _, rfl, by decide⟩

/-- all reducers of the package -/
def everyReducer : List Shipped :=
  [.averageWf, .common, .crossCorrelation, .crossCorrelationLocal, .crossCorrelationNeighbour, .ctapipeLocal, .ctapipeNeighbour, .flagFlashers, .nnls, .saturation,
   .slidingWindow, .slidingWindowLocal, .slidingWindowNeighbour, .spAmplitude, .timing]

example : (∀ c, c ∈ everyReducer) ∧ ∃ chain, shippedChain plainEnv everyReducer (fun _ => .null) none [("reference_pulse_path", .text "pulse.txt")] = .ok chain ∧
    chain.flatMap (fun r => r.active) = plainColumns := by
  refine ⟨fun c => by cases c <;> decide, _, rfl, by decide +kernel⟩

/-! ## C122 -/

/-- what can be seen of a chain: the columns, the active ones and the settings of each reducer -/
def Seen (chain : Except Err (List (Reducer RSetting RWindow Unit Unit))) : Except Err (List (List String × List String × RWindow)) :=
  match chain with
  | .error e => .error e
  | .ok rs => .ok (rs.map fun r => (r.cls.columns, r.active, r.state))

theorem erase_keys_sublist (d : Config RSetting) (k : String) : (Dict.keys (Dict.erase d k)).Sublist (Dict.keys d) := by
  induction d with
  | nil => exact List.Sublist.slnil
  | cons kv d ih =>
    obtain ⟨k', v⟩ := kv
    simp only [Dict.erase]
    split
    · exact List.sublist_cons_self _ _
    · exact List.Sublist.cons_cons _ ih

theorem not_mem_erase (d : Config RSetting) (k : String) (h : (Dict.keys d).Nodup) : k ∉ Dict.keys (Dict.erase d k) := by
  induction d with
  | nil => simp [Dict.erase, Dict.keys]
  | cons kv d ih =>
    obtain ⟨k', v⟩ := kv
    have h' : k' ∉ Dict.keys d ∧ (Dict.keys d).Nodup := List.nodup_cons.1 h
    simp only [Dict.erase]
    split
    · rename_i he; rw [← he]; exact h'.1
    · rename_i he
      show k ∉ k' :: Dict.keys (Dict.erase d k)
      rw [List.mem_cons]
      rintro (rfl | hm)
      · exact he rfl
      · exact ih h'.2 hm

theorem chainConfig_nodup (d : Config RSetting) (load : String → Yaml RSetting) (path : Option String) (kwargs config : Config RSetting)
    (hc : chainConfig d load path kwargs = .ok config) : (Dict.keys config).Nodup := by
  unfold chainConfig at hc
  simp only at hc
  repeat' split at hc
  all_goals first
    | (simp at hc; done)
    | (cases hc; exact Dict.nodup_keys_update _ _ (Dict.nodup_keys_update _ _ (by simp [Dict.keys, Dict.update])))

theorem init_congr (env : REnv) (c : Shipped) (a b : Config RSetting) (h : ∀ k, Dict.get? a k = Dict.get? b k) : c.init env a = c.init env b := by
  have hw : ∀ x y, windowOf a x y = windowOf b x y := by intro x y; unfold windowOf getSetting; rw [h, h]
  have hp : ∀ {α : Type} (x : Except Err α), needPulse env a x = needPulse env b x := by intro α x; unfold needPulse; rw [h]
  have hn : ∀ {α : Type} (x : Except Err α), needNnlsPulse env a x = needNnlsPulse env b x := by intro α x; unfold needNnlsPulse; rw [h]
  have hm : ∀ {α : Type} (x : Except Err α), needMapping a x = needMapping b x := by intro α x; unfold needMapping; rw [h]
  have hs : slidingInit env a = slidingInit env b := by unfold slidingInit slidingSize getSetting; rw [h]
  cases c <;> unfold Shipped.init <;> simp only [hw, hp, hn, hm, hs]
  unfold getSetting; rw [h]

theorem buildLoop_congr (env : REnv) (order : List Shipped) (a b : Config RSetting) (h : ∀ k, Dict.get? a k = Dict.get? b k) :
    Seen (buildLoop RSetting.truthy a (order.map (Shipped.cls env))) = Seen (buildLoop RSetting.truthy b (order.map (Shipped.cls env))) := by
  have hact : ∀ cols, getActiveColumns RSetting.truthy cols true a = getActiveColumns RSetting.truthy cols true b := by
    intro cols; unfold getActiveColumns; simp only [h]
  induction order with
  | nil => rfl
  | cons c order ih =>
    simp only [List.map_cons, buildLoop, hact]
    by_cases hw : (getActiveColumns RSetting.truthy (c.cls env).columns true b).length > 0
    · rw [if_pos hw, if_pos hw]
      have hi := init_congr env c a b h
      have hself : "self" ∈ Dict.keys a ↔ "self" ∈ Dict.keys b := by rw [Dict.mem_keys_iff, Dict.mem_keys_iff, h]
      unfold instantiate
      by_cases hs : "self" ∈ Dict.keys b
      · rw [if_pos hs, if_pos (hself.2 hs)]
      rw [if_neg hs, if_neg fun hh => hs (hself.1 hh)]
      rw [show (c.cls env).init a = c.init env a from rfl, show (c.cls env).init b = c.init env b from rfl, hi]
      cases c.init env b with
      | error e => rfl
      | ok w =>
        simp only
        cases ha : buildLoop RSetting.truthy a (order.map (Shipped.cls env)) with
        | error e =>
          cases hb : buildLoop RSetting.truthy b (order.map (Shipped.cls env)) with
          | error e' => rw [ha, hb] at ih; exact ih
          | ok rs => rw [ha, hb] at ih; simp [Seen] at ih
        | ok rs =>
          cases hb : buildLoop RSetting.truthy b (order.map (Shipped.cls env)) with
          | error e' => rw [ha, hb] at ih; simp [Seen] at ih
          | ok rs' =>
            rw [ha, hb] at ih
            simp only [Seen, Except.ok.injEq] at ih ⊢
            simp only [List.map_cons, ih, hact]
    · rw [if_neg hw, if_neg hw, ih]

/-- C122: reducing the same data again with the recorded configuration as configuration file gives the same reducers with the same columns and
settings, or the same error. -/
theorem C122_reproduces (env : REnv) (order : List Shipped) (load : String → Yaml RSetting) (path : Option String) (kwargs recorded : Config RSetting)
    (hk : (Dict.keys kwargs).Nodup) (hm : "mapping" ∈ Dict.keys kwargs)
    (h : recordedConfig load path kwargs = .ok recorded) (load' : String → Yaml RSetting) (p' : String) (hp' : p' ≠ "")
    (hl : load' p' = .map recorded) :
    Seen (shippedChain env order load' (some p') kwargs) = Seen (shippedChain env order load path kwargs) := by
  unfold recordedConfig at h
  cases hc : chainConfig (defaultColumns.map fun kv => (kv.1, RSetting.flag kv.2)) load path kwargs with
  | error e => rw [hc] at h; simp at h
  | ok config =>
    rw [hc] at h
    simp only [Except.ok.injEq] at h
    have hn := chainConfig_nodup _ _ _ _ _ hc
    have hover : ∀ k v, Dict.get? kwargs k = some v → Dict.get? config k = some v := by
      intro k v hv
      unfold chainConfig at hc
      simp only at hc
      repeat' split at hc
      all_goals first
        | (simp at hc; done)
        | (cases hc; rw [Dict.get?_update _ _ _ hk, hv]; rfl)
    have hrn : (Dict.keys recorded).Nodup := by
      rw [← h]
      exact hn.sublist (erase_keys_sublist _ _)
    obtain ⟨config', hc', hg'⟩ := C11_with_file (defaultColumns.map fun kv => (kv.1, RSetting.flag kv.2)) recorded kwargs load' p' hp' hl hrn hk
    have hsame : ∀ k, Dict.get? config' k = Dict.get? config k := by
      intro k
      rw [hg' k]
      cases hv : Dict.get? kwargs k with
      | some v => rw [hover k v hv]
      | none =>
        simp only
        rw [← h, get?_erase_ne]
        rintro rfl
        exact (Dict.get?_eq_none_iff _ _).1 hv hm
    unfold shippedChain newChain
    rw [hc, hc']
    simp only [buildChain]
    have hkeys : ∀ k, k ∈ Dict.keys config' ↔ k ∈ Dict.keys config := by
      intro k; rw [Dict.mem_keys_iff, Dict.mem_keys_iff, hsame]
    by_cases hbad : "n_pixels" ∈ Dict.keys config ∨ "n_samples" ∈ Dict.keys config ∨ "cls" ∈ Dict.keys config
    · rw [if_pos hbad, if_pos (by rw [hkeys, hkeys, hkeys]; exact hbad)]
    · rw [if_neg hbad, if_neg (by rw [hkeys, hkeys, hkeys]; exact hbad)]
      refine buildLoop_congr env order _ _ fun k => ?_
      by_cases hd : "_disable_by_default" = k
      · subst hd
        rw [(Dict.get?_eq_none_iff _ _).2 (not_mem_erase _ _ (chainConfig_nodup _ _ _ _ _ hc')),
          (Dict.get?_eq_none_iff _ _).2 (not_mem_erase _ _ hn)]
      · rw [get?_erase_ne _ _ _ hd, get?_erase_ne _ _ _ hd, hsame]

/-- C122 is false as a statement about every configuration: an entry `name` in the configuration file makes the recording fail, after all events were
processed, and an entry `key` moves the record to another table and is lost from it; an entry `self` is as bad as `name` (but is noticed
before the first event if a column is switched on, `C121_builds_iff`). -/
theorem C122_false : recordCall [("t_cc", .flag true), ("name", .text "x")] = .error .typeError ∧
    recordCall [("t_cc", .flag false), ("self", .text "x")] = .error .typeError ∧
    recordCall [("t_cc", .flag true), ("key", .text "mc")] = .ok (.text "mc", "config", [("t_cc", .flag true)]) := by decide

/-- C122, what holds (missing: entries `key`, `name` and `self`): the whole configuration is stored as `config` of the data. -/
theorem C122_recorded_partial (config : Config RSetting) (h1 : "key" ∉ Dict.keys config) (h2 : "name" ∉ Dict.keys config)
    (h3 : "self" ∉ Dict.keys config) :
    ∃ stored, recordCall config = .ok (.text "data", "config", stored) ∧ ∀ k, Dict.get? stored k = Dict.get? config k := by
  unfold recordCall
  rw [if_neg (by rintro (h | h); exacts [h2 h, h3 h]), (Dict.get?_eq_none_iff _ _).2 h1]
  refine ⟨_, rfl, fun k => ?_⟩
  by_cases hk : "key" = k
  · subst hk
    rw [(Dict.get?_eq_none_iff _ _).2 h1, Dict.get?_eq_none_iff]
    exact fun hm => h1 ((erase_keys_sublist _ _).subset hm)
  · exact get?_erase_ne _ _ _ hk

/-- C122: these are exactly the configurations that are stored as a whole. -/
theorem C122_exactly_partial (config : Config RSetting) (hn : (Dict.keys config).Nodup) :
    (∃ stored, recordCall config = .ok (.text "data", "config", stored) ∧ ∀ k, Dict.get? stored k = Dict.get? config k) ↔
      "key" ∉ Dict.keys config ∧ "name" ∉ Dict.keys config ∧ "self" ∉ Dict.keys config := by
  refine ⟨fun ⟨stored, h, hk⟩ => ?_, fun h => C122_recorded_partial config h.1 h.2.1 h.2.2⟩
  unfold recordCall at h
  by_cases h2 : "name" ∈ Dict.keys config ∨ "self" ∈ Dict.keys config
  · rw [if_pos h2] at h; cases h
  · refine ⟨fun h1 => ?_, fun hh => h2 (.inl hh), fun hh => h2 (.inr hh)⟩
    rw [if_neg h2] at h
    cases hc : Dict.get? config "key" with
    | none => exact (Dict.get?_eq_none_iff _ _).1 hc h1
    | some v =>
      rw [hc] at h
      simp only [Except.ok.injEq, Prod.mk.injEq] at h
      have := hk "key"
      rw [← h.2.2, hc, keys_mem_erase _ _ hn] at this
      cases this

example : ∃ r, recordedConfig (fun _ => .map [("fwhm", .flag true)]) (some "c.yml") [("mapping", .mapping), ("reference_pulse_path", .text "p")] = .ok r ∧
    r = [("fwhm", .flag true), ("reference_pulse_path", .text "p")] ∧ "key" ∉ Dict.keys r ∧ "name" ∉ Dict.keys r ∧
    "self" ∉ Dict.keys r := ⟨_, rfl, by decide, by decide, by decide, by decide⟩

end Verif.Props
