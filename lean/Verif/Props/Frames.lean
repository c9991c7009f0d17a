import Verif.Model.Frames
import Verif.Lemmas.Timing
import Verif.Py.DictLemmas
import Mathlib.Tactic.Linarith
import Mathlib.Tactic.Positivity
import Mathlib.Tactic.FieldSimp
import Mathlib.Tactic.Ring

/-! # C178: columns and types of appended frames -/

namespace Verif.Props

open Verif.Py Verif.Model

/-! ## dictionaries of columns -/

theorem get?_mapCols (d : Dict String Column) (g : String → Column → Column) (k : String) :
    Dict.get? (d.map fun kc => (kc.1, g kc.1 kc.2)) k = (Dict.get? d k).map (g k) := by
  induction d with
  | nil => rfl
  | cons kc d ih =>
    obtain ⟨a, c⟩ := kc
    rw [List.map_cons, Dict.get?_cons, Dict.get?_cons, ih]
    by_cases h : a = k
    · subst h; simp
    · simp [h]

theorem get?_names (names : List String) (g : String → Column) (k : String) :
    Dict.get? (names.map fun k => (k, g k)) k = if k ∈ names then some (g k) else none := by
  induction names with
  | nil => rfl
  | cons a names ih =>
    rw [List.map_cons, Dict.get?_cons, ih]
    by_cases h : a = k
    · subst h; simp
    · simp [h, Ne.symm h]

theorem sameColumns_iff (a b : Dict String Column) : sameColumns a b = true ↔ ∀ k, (Dict.get? a k).map Column.type = (Dict.get? b k).map Column.type := by
  unfold sameColumns
  rw [List.all_eq_true]
  constructor
  · intro h k
    by_cases hk : k ∈ Dict.keys a ++ Dict.keys b
    · simpa using h k hk
    · rw [List.mem_append, not_or] at hk
      rw [(Dict.get?_eq_none_iff _ _).2 hk.1, (Dict.get?_eq_none_iff _ _).2 hk.2]
  · intro h k _
    simpa using h k

theorem extendTable_get (t new : Dict String Column) (k : String) :
    Dict.get? (extendTable t new) k = (Dict.get? t k).map fun c => ⟨c.type, c.values ++ ((Dict.get? new k).map Column.values).getD []⟩ :=
  get?_mapCols t (fun k c => ⟨c.type, c.values ++ ((Dict.get? new k).map Column.values).getD []⟩) k

theorem mem_frameNames (fs : List TypedFrame) (k : String) : k ∈ frameNames fs ↔ ∃ f ∈ fs, (Dict.get? f.cols k).isSome = true := by
  unfold frameNames
  rw [List.mem_flatMap]
  refine exists_congr fun f => and_congr_right fun _ => ?_
  rw [Dict.mem_keys_iff, Option.isSome_iff_exists]

theorem joinFrames_get (fs : List TypedFrame) (k : String) :
    Dict.get? (joinFrames fs) k = if k ∈ frameNames fs then some ⟨joinedType fs k, joinedValues fs k⟩ else none := get?_names _ _ _

/-! ## frames with the same columns -/

/-- every frame has the columns of a scheme, with its types -/
def FramesLike (scheme : String → Option ColType) (fs : List TypedFrame) : Prop := ∀ f ∈ fs, ∀ k, (Dict.get? f.cols k).map Column.type = scheme k

/-- the values of a column in the frames, in order -/
def frameColumn (fs : List TypedFrame) (k : String) : List (Option ℚ) := fs.flatMap fun f => ((Dict.get? f.cols k).map Column.values).getD []

theorem foldl_joinType (t : ColType) (ts : List ColType) (h : ∀ x ∈ ts, x = t) : ts.foldl joinType t = t := by
  induction ts with
  | nil => rfl
  | cons x ts ih =>
    rw [List.foldl_cons, h x List.mem_cons_self]
    simp only [joinType, if_true]
    exact ih fun y hy => h y (List.mem_cons_of_mem _ hy)

theorem joinFrames_like (scheme : String → Option ColType) (fs : List TypedFrame) (h : FramesLike scheme fs) (hne : fs ≠ []) (k : String) :
    Dict.get? (joinFrames fs) k = (scheme k).map fun t => ⟨t, frameColumn fs k⟩ := by
  rw [joinFrames_get]
  obtain ⟨f, fs', rfl⟩ := List.exists_cons_of_ne_nil hne
  cases hk : scheme k with
  | none =>
    rw [if_neg]
    · rfl
    · rw [mem_frameNames]
      rintro ⟨g, hg, hs⟩
      have := h g hg k
      rw [hk, Option.map_eq_none_iff] at this
      rw [this] at hs; cases hs
  | some t =>
    have hsome : ∀ g ∈ f :: fs', ∃ c, Dict.get? g.cols k = some c ∧ c.type = t := by
      intro g hg
      have := h g hg k
      rw [hk, Option.map_eq_some_iff] at this
      exact this
    rw [if_pos]
    · simp only [Option.map_some]
      congr 1
      rw [Column.mk.injEq]
      constructor
      · unfold joinedType
        have htypes : ∀ x ∈ (f :: fs').filterMap (fun f => (Dict.get? f.cols k).map Column.type), x = t := by
          intro x hx
          obtain ⟨g, hg, he⟩ := List.mem_filterMap.1 hx
          rw [h g hg k, hk] at he
          exact (Option.some.inj he).symm
        have hhead : ((f :: fs').filterMap (fun f => (Dict.get? f.cols k).map Column.type)).headD .float64 = t := by
          rw [List.filterMap_cons, h f List.mem_cons_self k, hk]
          rfl
        have hall : ((f :: fs').all fun f => (Dict.get? f.cols k).isSome) = true := by
          rw [List.all_eq_true]
          intro g hg
          obtain ⟨c, hc, -⟩ := hsome g hg
          rw [hc]; rfl
        simp only [hhead, hall, if_true]
        exact foldl_joinType t _ htypes
      · unfold joinedValues frameColumn
        refine List.flatMap_congr fun g hg => ?_
        obtain ⟨c, hc, -⟩ := hsome g hg
        rw [hc]; rfl
    · rw [mem_frameNames]
      obtain ⟨c, hc, -⟩ := hsome f List.mem_cons_self
      exact ⟨f, List.mem_cons_self, by rw [hc]; rfl⟩

/-- a conversion that treats every value of the columns of these frames by itself -/
def ByValue (prep : Column → Column) (type : ColType → ColType) (value : ColType → Option ℚ → Option ℚ) (scheme : String → Option ColType) (fs : List TypedFrame) : Prop :=
  ∀ k t, scheme k = some t → ∀ gs, gs.Sublist fs → prep ⟨t, frameColumn gs k⟩ = ⟨type t, (frameColumn gs k).map (value t)⟩

/-- the table holds the frames -/
def HoldsFrames (type : ColType → ColType) (value : ColType → Option ℚ → Option ℚ) (scheme : String → Option ColType) (t : Dict String Column) (fs : List TypedFrame) : Prop :=
  ∀ k, Dict.get? t k = (scheme k).map fun ty => ⟨type ty, (frameColumn fs k).map (value ty)⟩

theorem frameColumn_append (a b : List TypedFrame) (k : String) : frameColumn (a ++ b) k = frameColumn a k ++ frameColumn b k := List.flatMap_append

/-- a flush succeeds and the table then holds what it held with the frames of the buffer -/
theorem flush_like (prep : Column → Column) (type : ColType → ColType) (value : ColType → Option ℚ → Option ℚ) (scheme : String → Option ColType) (fs : List TypedFrame)
    (hl : FramesLike scheme fs) (hb : ByValue prep type value scheme fs) (done : List TypedFrame) (st : FrameState) (hsub : st.buffer.Sublist fs)
    (hinv : (st.table = none ∧ done = []) ∨ ∃ t, st.table = some t ∧ HoldsFrames type value scheme t done) (hne : st.buffer ≠ []) :
    ∃ t, flushFrames prep st = .ok ⟨some t, []⟩ ∧ HoldsFrames type value scheme t (done ++ st.buffer) := by
  have hlb : FramesLike scheme st.buffer := fun f hf => hl f (hsub.subset hf)
  have hnew : ∀ k, Dict.get? ((joinFrames st.buffer).map fun kc => (kc.1, prep kc.2)) k = (scheme k).map fun ty => ⟨type ty, (frameColumn st.buffer k).map (value ty)⟩ := by
    intro k
    rw [get?_mapCols _ (fun _ c => prep c), joinFrames_like scheme _ hlb hne]
    cases hk : scheme k with
    | none => rfl
    | some t => simp only [Option.map_some]; rw [hb k t hk _ hsub]
  unfold flushFrames
  rw [if_neg hne]
  rcases hinv with ⟨ht, rfl⟩ | ⟨t, ht, hh⟩
  · rw [ht]
    exact ⟨_, rfl, hnew⟩
  · rw [ht]
    have hs : sameColumns t ((joinFrames st.buffer).map fun kc => (kc.1, prep kc.2)) = true := by
      rw [sameColumns_iff]
      intro k
      rw [hh k, hnew k]
      cases scheme k <;> rfl
    simp only [hs, if_true]
    refine ⟨_, rfl, fun k => ?_⟩
    rw [extendTable_get, hh k, hnew k, frameColumn_append]
    cases scheme k with
    | none => rfl
    | some ty => simp

theorem session_like (prep : Column → Column) (type : ColType → ColType) (value : ColType → Option ℚ → Option ℚ) (scheme : String → Option ColType) (fs : List TypedFrame)
    (hl : FramesLike scheme fs) (hb : ByValue prep type value scheme fs) (todo : List (TypedFrame × Bool)) (done : List TypedFrame) (st : FrameState)
    (hsub : (st.buffer ++ todo.map Prod.fst).Sublist fs)
    (hinv : (st.table = none ∧ done = []) ∨ ∃ t, st.table = some t ∧ HoldsFrames type value scheme t done)
    (hne : st.table = none → st.buffer ++ todo.map Prod.fst ≠ []) :
    ∃ t, frameSession prep todo st = (⟨some t, []⟩, none) ∧ HoldsFrames type value scheme t (done ++ st.buffer ++ todo.map Prod.fst) := by
  induction todo generalizing done st with
  | nil =>
    simp only [List.map_nil, List.append_nil] at hsub hne ⊢
    by_cases hbuf : st.buffer = []
    · rcases hinv with ⟨ht, rfl⟩ | ⟨t, ht, hh⟩
      · exact absurd hbuf (hne ht)
      · obtain ⟨table, buffer⟩ := st
        simp only at hbuf ht
        subst hbuf ht
        refine ⟨t, rfl, by simpa using hh⟩
    · obtain ⟨t, hf, hh⟩ := flush_like prep type value scheme fs hl hb done st hsub hinv hbuf
      exact ⟨t, by rw [frameSession, hf], hh⟩
  | cons p todo ih =>
    obtain ⟨f, full⟩ := p
    rw [frameSession]
    simp only [List.map_cons] at hsub ⊢
    have hsub1 : (st.buffer ++ [f]).Sublist fs := (List.Sublist.append_left (by simp) _).trans hsub
    cases full with
    | true =>
      obtain ⟨t, hf, hh⟩ := flush_like prep type value scheme fs hl hb done ⟨st.table, st.buffer ++ [f]⟩ hsub1 hinv (by simp)
      simp only [if_true, hf]
      obtain ⟨t', hs, hh'⟩ := ih (done ++ (st.buffer ++ [f])) ⟨some t, []⟩
        (by
          refine List.Sublist.trans ?_ hsub
          simp only [List.nil_append]
          exact (List.sublist_append_right (st.buffer ++ [f]) _).trans (by simp))
        (.inr ⟨t, rfl, hh⟩) (fun h => by cases h)
      exact ⟨t', hs, by simpa using hh'⟩
    | false =>
      simp only [Bool.false_eq_true, if_false]
      obtain ⟨t', hs, hh'⟩ := ih done ⟨st.table, st.buffer ++ [f]⟩ (by simpa using hsub) hinv (fun _ => by simp)
      exact ⟨t', hs, by simpa using hh'⟩

/-- C178, partial: frames that all have the same columns with the same types reach the table of `HDF5Writer` completely and in order, whenever the memory was full;
columns and types of the table are those of the frames. -/
theorem C178_writer_partial (scheme : String → Option ColType) (appends : List (TypedFrame × Bool)) (hl : FramesLike scheme (appends.map Prod.fst)) (hne : appends ≠ []) :
    ∃ t, frameSession plainColumn appends ⟨none, []⟩ = (⟨some t, []⟩, none) ∧
      ∀ k, Dict.get? t k = (scheme k).map fun ty => ⟨ty, (appends.map Prod.fst).flatMap fun f => ((Dict.get? f.cols k).map Column.values).getD []⟩ := by
  obtain ⟨t, hs, hh⟩ := session_like plainColumn id (fun _ v => v) scheme _ hl (fun k ty _ gs _ => by simp [plainColumn]) appends [] ⟨none, []⟩ (by simp)
    (.inl ⟨rfl, rfl⟩) (fun _ => by simpa using hne)
  refine ⟨t, hs, fun k => ?_⟩
  rw [hh k]
  simp only [List.nil_append, List.map_id']
  rfl

/-- single precision for double precision -/
def singleType : ColType → ColType
  | .float64 => .float32
  | t => t

/-- C178, partial: so they reach the table of a DL1 file: every column of double precision becomes one of single precision, each value rounded by itself. This holds
without a tolerance, and with one if no value changes by more. -/
theorem C178_dl1_partial (scheme : String → Option ColType) (tol : Option ℚ) (appends : List (TypedFrame × Bool)) (hl : FramesLike scheme (appends.map Prod.fst)) (hne : appends ≠ [])
    (htol : ∀ e, tol = some e → ∀ p ∈ appends, ∀ k c, Dict.get? p.1.cols k = some c → c.type = .float64 → ∀ v, some v ∈ c.values → |roundSingle v - v| ≤ e) :
    ∃ t, frameSession (dl1Column tol) appends ⟨none, []⟩ = (⟨some t, []⟩, none) ∧
      ∀ k, Dict.get? t k = (scheme k).map fun ty => ⟨singleType ty, ((appends.map Prod.fst).flatMap fun f => ((Dict.get? f.cols k).map Column.values).getD []).map
        fun v => if ty = .float64 then v.map roundSingle else v⟩ := by
  have hb : ByValue (dl1Column tol) singleType (fun ty v => if ty = .float64 then v.map roundSingle else v) scheme (appends.map Prod.fst) := by
    intro k ty hk gs hgs
    unfold dl1Column
    cases ty with
    | int => simp [singleType]
    | float32 => simp [singleType]
    | float64 =>
      rw [if_pos]
      · simp [singleType]
      · refine ⟨rfl, ?_⟩
        unfold closeEnough
        cases tol with
        | none => rfl
        | some e =>
          simp only [List.all_eq_true]
          intro v hv
          cases v with
          | none => rfl
          | some v =>
            simp only [decide_eq_true_eq]
            obtain ⟨f, hf, hvf⟩ := List.mem_flatMap.1 hv
            obtain ⟨p, hp, rfl⟩ := List.mem_map.1 (hgs.subset hf)
            have ht := hl _ (hgs.subset hf) k
            rw [hk, Option.map_eq_some_iff] at ht
            obtain ⟨c, hc, hct⟩ := ht
            rw [hc] at hvf
            exact htol e rfl p hp k c hc hct v hvf
  obtain ⟨t, hs, hh⟩ := session_like (dl1Column tol) _ _ scheme _ hl hb appends [] ⟨none, []⟩ (by simp) (.inl ⟨rfl, rfl⟩) (fun _ => by simpa using hne)
  exact ⟨t, hs, fun k => by rw [hh k]; simp only [List.nil_append]; rfl⟩

/-- the hypotheses hold for three events with a charge and a time, memory full after the second -/
def chargeFrame (q t : ℚ) : TypedFrame := ⟨1, [("charge", ⟨.float64, [some q]⟩), ("time", ⟨.int, [some t]⟩)]⟩

example : FramesLike (fun k => if k = "charge" then some .float64 else if k = "time" then some .int else none)
    ([(chargeFrame (1 / 3) 40, false), (chargeFrame 2 41, true), (chargeFrame (5 / 2) 39, false)].map Prod.fst) := by
  intro f hf k
  have : ∃ q t, f = chargeFrame q t := by
    simp only [List.map_cons, List.map_nil, List.mem_cons, List.not_mem_nil, or_false] at hf
    rcases hf with rfl | rfl | rfl <;> exact ⟨_, _, rfl⟩
  obtain ⟨q, t, rfl⟩ := this
  unfold chargeFrame
  simp only [Dict.get?_cons, Dict.get?_nil]
  by_cases h1 : k = "charge"
  · subst h1; simp
  · by_cases h2 : k = "time"
    · subst h2; simp
    · simp [h1, h2, Ne.symm h1, Ne.symm h2]

/-! ## any frames -/

/-- the frames that are written together -/
def groupsOf : List TypedFrame → List (TypedFrame × Bool) → List (List TypedFrame)
  | buffer, [] => if buffer = [] then [] else [buffer]
  | buffer, (f, true) :: rest => (buffer ++ [f]) :: groupsOf [] rest
  | buffer, (f, false) :: rest => groupsOf (buffer ++ [f]) rest

/-- a column of a group as it would be written -/
def groupColumn (prep : Column → Column) (g : List TypedFrame) (k : String) : Option Column := (Dict.get? (joinFrames g) k).map prep

/-- the values of a column of several groups -/
def groupValues (prep : Column → Column) (gs : List (List TypedFrame)) (k : String) : List (Option ℚ) := gs.flatMap fun g => ((groupColumn prep g k).map Column.values).getD []

theorem groupColumn_eq (prep : Column → Column) (g : List TypedFrame) (k : String) :
    Dict.get? ((joinFrames g).map fun kc => (kc.1, prep kc.2)) k = groupColumn prep g k := get?_mapCols _ (fun _ c => prep c) k

/-- the table has the types of these groups, if there are any, and their values -/
def TableOf (prep : Column → Column) (table : Option (Dict String Column)) (gs : List (List TypedFrame)) : Prop :=
  (table = none ∧ gs = []) ∨ ∃ t, table = some t ∧ gs ≠ [] ∧
    ∀ k, (Dict.get? t k).map Column.values = (if (Dict.get? t k).isSome then some (groupValues prep gs k) else none) ∧
      ∀ g ∈ gs, (groupColumn prep g k).map Column.type = (Dict.get? t k).map Column.type

/-- a flush of a group after others: either all agree, or `ValueError` -/
theorem flush_group (prep : Column → Column) (table : Option (Dict String Column)) (gs : List (List TypedFrame)) (h : TableOf prep table gs) (g : List TypedFrame) (hg : g ≠ []) :
    (∃ t, flushFrames prep ⟨table, g⟩ = .ok ⟨some t, []⟩ ∧ TableOf prep (some t) (gs ++ [g])) ∨
      (flushFrames prep ⟨table, g⟩ = .error .valueError ∧ ∃ g' ∈ gs, ∃ k, (groupColumn prep g' k).map Column.type ≠ (groupColumn prep g k).map Column.type) := by
  unfold flushFrames
  rw [if_neg hg]
  rcases h with ⟨rfl, rfl⟩ | ⟨t, rfl, hne, ht⟩
  · refine .inl ⟨_, rfl, .inr ⟨_, rfl, by simp, fun k => ⟨?_, fun g' hg' => ?_⟩⟩⟩
    · rw [groupColumn_eq]
      unfold groupValues
      simp only [List.nil_append, List.flatMap_cons, List.flatMap_nil, List.append_nil]
      cases groupColumn prep g k <;> rfl
    · simp only [List.nil_append, List.mem_singleton] at hg'
      rw [hg', groupColumn_eq]
  · by_cases hs : sameColumns t ((joinFrames g).map fun kc => (kc.1, prep kc.2)) = true
    · simp only [hs, if_true]
      refine .inl ⟨_, rfl, .inr ⟨_, rfl, by simp, fun k => ?_⟩⟩
      rw [sameColumns_iff] at hs
      have hk := hs k
      rw [groupColumn_eq] at hk
      rw [extendTable_get, groupColumn_eq]
      obtain ⟨h1, h2⟩ := ht k
      constructor
      · cases hc : Dict.get? t k with
        | none => rfl
        | some c =>
          rw [hc] at h1
          have h1 : c.values = groupValues prep gs k := by simpa using h1
          simp only [Option.map_some, Option.isSome_some, if_true, h1, groupValues, List.flatMap_append, List.flatMap_cons, List.flatMap_nil, List.append_nil]
      · intro g' hg'
        rw [Option.map_map]
        have : (Dict.get? t k).map (Column.type ∘ fun c => ⟨c.type, c.values ++ ((groupColumn prep g k).map Column.values).getD []⟩) = (Dict.get? t k).map Column.type := by
          cases Dict.get? t k <;> rfl
        rw [this]
        rcases List.mem_append.1 hg' with hg' | hg'
        · exact h2 g' hg'
        · rw [List.mem_singleton.1 hg', ← hk]
    · refine .inr ⟨?_, ?_⟩
      · simp only [hs, Bool.false_eq_true, if_false]
      · obtain ⟨g', hg'⟩ := List.exists_mem_of_ne_nil _ hne
        rw [sameColumns_iff, not_forall] at hs
        obtain ⟨k, hk⟩ := hs
        rw [groupColumn_eq] at hk
        exact ⟨g', hg', k, by rw [(ht k).2 g' hg']; exact hk⟩

/-- what a session leaves -/
theorem session_groups (prep : Column → Column) (todo : List (TypedFrame × Bool)) (st : FrameState) (gs : List (List TypedFrame)) (h : TableOf prep st.table gs) :
    ∃ pre post, groupsOf st.buffer todo = pre ++ post ∧ TableOf prep (frameSession prep todo st).1.table (gs ++ pre) ∧
      ((frameSession prep todo st).2 = none ∧ post = [] ∧ (frameSession prep todo st).1.buffer = [] ∨
        (frameSession prep todo st).2 = some .valueError ∧ ∃ g post', post = g :: post' ∧ (frameSession prep todo st).1.buffer = g ∧
          ∃ g' ∈ gs ++ pre, ∃ k, (groupColumn prep g' k).map Column.type ≠ (groupColumn prep g k).map Column.type) := by
  induction todo generalizing st gs with
  | nil =>
    rw [frameSession, groupsOf]
    by_cases hb : st.buffer = []
    · have : flushFrames prep st = .ok st := by unfold flushFrames; rw [if_pos hb]
      rw [this, if_pos hb]
      exact ⟨[], [], rfl, by simpa using h, .inl ⟨rfl, rfl, hb⟩⟩
    · rw [if_neg hb]
      rcases flush_group prep st.table gs h st.buffer hb with ⟨t, hf, ht⟩ | ⟨hf, hd⟩
      · have hf : flushFrames prep st = _ := hf
        rw [hf]
        exact ⟨[st.buffer], [], by simp, ht, .inl ⟨rfl, rfl, rfl⟩⟩
      · have hf : flushFrames prep st = _ := hf
        rw [hf]
        exact ⟨[], [st.buffer], rfl, by simpa using h, .inr ⟨rfl, st.buffer, [], rfl, rfl, by simpa using hd⟩⟩
  | cons p todo ih =>
    obtain ⟨f, full⟩ := p
    rw [frameSession]
    cases full with
    | false =>
      simp only [Bool.false_eq_true, if_false, groupsOf]
      exact ih ⟨st.table, st.buffer ++ [f]⟩ gs h
    | true =>
      simp only [if_true, groupsOf]
      rcases flush_group prep st.table gs h (st.buffer ++ [f]) (by simp) with ⟨t, hf, ht⟩ | ⟨hf, hd⟩
      · simp only [hf]
        obtain ⟨pre, post, h1, h2, h3⟩ := ih ⟨some t, []⟩ (gs ++ [st.buffer ++ [f]]) ht
        refine ⟨(st.buffer ++ [f]) :: pre, post, by simp only [h1, List.cons_append], by simpa using h2, by simpa using h3⟩
      · simp only [hf]
        exact ⟨[], (st.buffer ++ [f]) :: groupsOf [] todo, rfl, by simpa using h, .inr ⟨by trivial, st.buffer ++ [f], _, rfl, by trivial, by simpa using hd⟩⟩

/-- C178, partial: exactly when all frames can be stored - when the groups that are written together agree in columns and types, after the conversion. -/
theorem C178_exactly_partial (prep : Column → Column) (appends : List (TypedFrame × Bool)) :
    (frameSession prep appends ⟨none, []⟩).2 = none ↔
      ∀ g ∈ groupsOf [] appends, ∀ g' ∈ groupsOf [] appends, ∀ k, (groupColumn prep g k).map Column.type = (groupColumn prep g' k).map Column.type := by
  obtain ⟨pre, post, h1, h2, h3⟩ := session_groups prep appends ⟨none, []⟩ [] (.inl ⟨rfl, rfl⟩)
  simp only [List.nil_append] at h2 h3
  constructor
  · intro hn
    rcases h3 with ⟨-, rfl, -⟩ | ⟨h3, -⟩
    · intro g hg g' hg' k
      simp only [h1, List.append_nil] at hg hg'
      rcases h2 with ⟨-, rfl⟩ | ⟨t, -, -, ht⟩
      · cases hg
      · rw [(ht k).2 g hg, (ht k).2 g' hg']
    · rw [h3] at hn; cases hn
  · intro hall
    rcases h3 with ⟨h3, -⟩ | ⟨-, g, post', rfl, -, g', hg', k, hk⟩
    · exact h3
    · exact absurd (hall g' (by rw [h1]; simp [hg']) g (by rw [h1]; simp) k) hk

/-- C178, partial: what is left otherwise. The first group that differs stays in memory, it and everything after it is missing in the file, and the program ends with
`ValueError`; what was written before is complete. -/
theorem C178_failure_partial (prep : Column → Column) (appends : List (TypedFrame × Bool)) (h : (frameSession prep appends ⟨none, []⟩).2 ≠ none) :
    (frameSession prep appends ⟨none, []⟩).2 = some .valueError ∧ ∃ pre g post t, groupsOf [] appends = pre ++ g :: post ∧
      (frameSession prep appends ⟨none, []⟩).1.buffer = g ∧ (frameSession prep appends ⟨none, []⟩).1.table = some t ∧
      ∀ k c, Dict.get? t k = some c → c.values = groupValues prep pre k := by
  obtain ⟨pre, post, h1, h2, h3⟩ := session_groups prep appends ⟨none, []⟩ [] (.inl ⟨rfl, rfl⟩)
  simp only [List.nil_append] at h2 h3
  rcases h3 with ⟨h3, -⟩ | ⟨h3, g, post', rfl, hb, g', hg', -⟩
  · exact absurd h3 h
  · refine ⟨h3, pre, g, post', ?_⟩
    rcases h2 with ⟨-, rfl⟩ | ⟨t, ht, -, hv⟩
    · cases hg'
    · refine ⟨t, h1, hb, ht, fun k c hc => ?_⟩
      have := (hv k).1
      rw [hc] at this
      simpa using this

/-- all frames are in some group, in order -/
theorem groupsOf_flatten (buffer : List TypedFrame) (todo : List (TypedFrame × Bool)) : (groupsOf buffer todo).flatten = buffer ++ todo.map Prod.fst := by
  induction todo generalizing buffer with
  | nil =>
    rw [groupsOf]
    split
    · next h => simp [h]
    · simp
  | cons p todo ih =>
    obtain ⟨f, full⟩ := p
    cases full with
    | true => rw [groupsOf, List.flatten_cons, ih]; simp
    | false => rw [groupsOf, ih]; simp

theorem foldl_joinType_iff (x : ColType) (hx : x ≠ .float64) (t : ColType) (ts : List ColType) : ts.foldl joinType t = x ↔ t = x ∧ ∀ y ∈ ts, y = x := by
  induction ts generalizing t with
  | nil => simp
  | cons y ts ih =>
    rw [List.foldl_cons, ih]
    have : joinType t y = x ↔ t = x ∧ y = x := by
      unfold joinType
      split
      · next h => subst h; simp
      · next h =>
        constructor
        · intro e; exact absurd e.symm hx
        · rintro ⟨rfl, rfl⟩; exact absurd rfl h
    rw [this]
    simp only [List.mem_cons, forall_eq_or_imp, and_assoc]

/-- C178, partial: what joined frames are. A column is there if a frame has it; its values are those of the frames in order, NaN for every row of a frame without it; it
holds integers if every frame has it as integers, single precision if all frames that have it do, else double precision. -/
theorem C178_join_partial (fs : List TypedFrame) (k : String) : (Dict.get? (joinFrames fs) k = none ↔ ∀ f ∈ fs, Dict.get? f.cols k = none) ∧
    ∀ c, Dict.get? (joinFrames fs) k = some c →
      c.values = (fs.map fun f => ((Dict.get? f.cols k).map Column.values).getD (List.replicate f.rows none)).flatten ∧
      (c.type = .int ↔ ∀ f ∈ fs, ∃ c', Dict.get? f.cols k = some c' ∧ c'.type = .int) ∧
      (c.type = .float32 ↔ ∀ f ∈ fs, ∀ c', Dict.get? f.cols k = some c' → c'.type = .float32) := by
  rw [joinFrames_get]
  constructor
  · by_cases hk : k ∈ frameNames fs
    · rw [if_pos hk]
      obtain ⟨f, hf, hs⟩ := (mem_frameNames _ _).1 hk
      simp only [reduceCtorEq, false_iff, not_forall]
      exact ⟨f, hf, fun e => by rw [e] at hs; cases hs⟩
    · rw [if_neg hk]
      rw [mem_frameNames] at hk
      simp only [true_iff]
      intro f hf
      cases he : Dict.get? f.cols k with
      | none => rfl
      | some c => exact absurd ⟨f, hf, by rw [he]; rfl⟩ hk
  · intro c hc
    by_cases hk : k ∈ frameNames fs
    · rw [if_pos hk] at hc
      obtain rfl := Option.some.inj hc
      refine ⟨?_, ?_⟩
      · simp only [joinedValues, List.flatMap_def]
        congr 1
        refine List.map_congr_left fun f _ => ?_
        cases Dict.get? f.cols k <;> rfl
      · obtain ⟨f0, hf0, hs0⟩ := (mem_frameNames _ _).1 hk
        obtain ⟨c0, hc0⟩ := Option.isSome_iff_exists.1 hs0
        have hmem : ∀ y, y ∈ fs.filterMap (fun f => (Dict.get? f.cols k).map Column.type) ↔ ∃ f ∈ fs, ∃ c, Dict.get? f.cols k = some c ∧ c.type = y := by
          intro y
          simp only [List.mem_filterMap, Option.map_eq_some_iff]
        have hne : fs.filterMap (fun f => (Dict.get? f.cols k).map Column.type) ≠ [] := List.ne_nil_of_mem ((hmem c0.type).2 ⟨f0, hf0, c0, hc0, rfl⟩)
        have hfold : ∀ x, x ≠ ColType.float64 → ((fs.filterMap (fun f => (Dict.get? f.cols k).map Column.type)).foldl joinType
            ((fs.filterMap (fun f => (Dict.get? f.cols k).map Column.type)).headD .float64) = x ↔ ∀ f ∈ fs, ∀ c', Dict.get? f.cols k = some c' → c'.type = x) := by
          intro x hx
          rw [foldl_joinType_iff x hx]
          constructor
          · rintro ⟨-, h⟩ f hf c' hc'
            exact h _ ((hmem _).2 ⟨f, hf, c', hc', rfl⟩)
          · intro h
            have hall : ∀ y ∈ fs.filterMap (fun f => (Dict.get? f.cols k).map Column.type), y = x := by
              intro y hy
              obtain ⟨f, hf, c', hc', rfl⟩ := (hmem y).1 hy
              exact h f hf c' hc'
            refine ⟨hall _ ?_, hall⟩
            obtain ⟨y, ys, e⟩ := List.exists_cons_of_ne_nil hne
            rw [e]; simp
        have hi := hfold .int (by simp)
        have hs := hfold .float32 (by simp)
        by_cases hall : (fs.all fun f => (Dict.get? f.cols k).isSome) = true
        · have ht : joinedType fs k = (fs.filterMap (fun f => (Dict.get? f.cols k).map Column.type)).foldl joinType
            ((fs.filterMap (fun f => (Dict.get? f.cols k).map Column.type)).headD .float64) := by unfold joinedType; rw [if_pos hall]
          rw [List.all_eq_true] at hall
          refine ⟨?_, by simp only [ht]; exact hs⟩
          simp only [ht]
          rw [hi]
          refine forall₂_congr fun f hf => ?_
          obtain ⟨c', hc'⟩ := Option.isSome_iff_exists.1 (hall f hf)
          rw [hc']; simp
        · have ht : joinedType fs k = fillType ((fs.filterMap (fun f => (Dict.get? f.cols k).map Column.type)).foldl joinType
            ((fs.filterMap (fun f => (Dict.get? f.cols k).map Column.type)).headD .float64)) := by unfold joinedType; rw [if_neg hall]
          have hfi : ∀ t, fillType t ≠ .int := by intro t; cases t <;> simp [fillType]
          have hfs : ∀ t, fillType t = .float32 ↔ t = .float32 := by intro t; cases t <;> simp [fillType]
          simp only [ht]
          refine ⟨?_, by rw [hfs]; exact hs⟩
          constructor
          · intro e; exact absurd e (hfi _)
          · intro h
            refine absurd ?_ hall
            rw [List.all_eq_true]
            intro f hf
            obtain ⟨c', hc', -⟩ := h f hf
            rw [hc']; rfl
    · rw [if_neg hk] at hc; cases hc

/-- a frame with one more column -/
def wideFrame : TypedFrame := ⟨1, [("charge", ⟨.float64, [some 3]⟩), ("time", ⟨.int, [some 38]⟩), ("flag", ⟨.int, [some 1]⟩)]⟩

/-- C178 is false: a frame with another column is stored with NaN in the other rows if it is written together with them, else `ValueError` ends the program. -/
theorem C178_false :
    (frameSession plainColumn [(chargeFrame 2 40, false), (wideFrame, false)] ⟨none, []⟩).2 = none ∧
      ((frameSession plainColumn [(chargeFrame 2 40, false), (wideFrame, false)] ⟨none, []⟩).1.table.bind fun t => Dict.get? t "flag") = some ⟨.float64, [none, some 1]⟩ ∧
      (frameSession plainColumn [(chargeFrame 2 40, true), (wideFrame, false)] ⟨none, []⟩).2 = some .valueError := by
  refine ⟨?_, ?_, ?_⟩ <;> decide +kernel

/-- C178 is false: so it is with a column of integers in one frame and of numbers in another. -/
theorem C178_types_false :
    (frameSession plainColumn [(⟨1, [("x", ⟨.int, [some 1]⟩)]⟩, false), (⟨1, [("x", ⟨.float64, [some (1 / 2)]⟩)]⟩, false)] ⟨none, []⟩).2 = none ∧
      (frameSession plainColumn [(⟨1, [("x", ⟨.int, [some 1]⟩)]⟩, true), (⟨1, [("x", ⟨.float64, [some (1 / 2)]⟩)]⟩, false)] ⟨none, []⟩).2 = some .valueError := by
  refine ⟨?_, ?_⟩ <;> decide +kernel

/-! ## single precision -/

/-- the numbers of single precision (without an upper limit) -/
def IsSingle (r : ℚ) : Prop := ∃ m e : ℤ, |m| ≤ 2 ^ 24 ∧ -149 ≤ e ∧ r = m * 2 ^ e

theorem singleStep_pos (v : ℚ) : 0 < singleStep v := by unfold singleStep; exact zpow_pos (by norm_num) _

theorem singleStep_eq (v : ℚ) : ∃ s : ℤ, -149 ≤ s ∧ singleStep v = 2 ^ s ∧ |v| < 2 ^ (s + 24) ∧ (v ≠ 0 → s = -149 ∨ (2 : ℚ) ^ (s + 23) ≤ |v|) := by
  refine ⟨max (Int.log 2 |v|) (-126) - 23, by omega, rfl, ?_, fun hv => ?_⟩
  · have h := Int.lt_zpow_succ_log_self (b := 2) (by norm_num) |v|
    refine lt_of_lt_of_le h ?_
    push_cast
    exact zpow_le_zpow_right₀ (by norm_num) (by omega)
  · rcases le_total (Int.log 2 |v|) (-126) with h | h
    · left; omega
    · right
      have := Int.zpow_log_le_self (b := 2) (by norm_num) (abs_pos.2 hv)
      rw [max_eq_left h]
      have e : Int.log 2 |v| - 23 + 23 = Int.log 2 |v| := by ring
      rw [e]
      exact_mod_cast this

theorem roundEven_nearest (x : ℚ) (k : ℤ) : |x - roundEven x| ≤ |x - k| := by
  have h := Lemmas.roundEven_near x
  by_cases hk : k = roundEven x
  · rw [hk]
  · have h1 : (1 : ℚ) ≤ |((k - roundEven x : ℤ) : ℚ)| := by
      have : 1 ≤ |k - roundEven x| := Int.one_le_abs (sub_ne_zero.2 hk)
      exact_mod_cast this
    have h2 : |((k - roundEven x : ℤ) : ℚ)| ≤ |x - k| + |x - roundEven x| := by
      have := abs_sub_le (k : ℚ) x (roundEven x)
      push_cast
      rw [abs_sub_comm x k]
      exact this
    linarith

theorem roundSingle_error (v : ℚ) (k : ℤ) : |roundSingle v - v| ≤ |k * singleStep v - v| := by
  have hp := singleStep_pos v
  have h := roundEven_nearest (v / singleStep v) k
  have e : ∀ a : ℚ, |a * singleStep v - v| = |v / singleStep v - a| * singleStep v := by
    intro a
    rw [abs_sub_comm, ← abs_of_pos hp, ← abs_mul, abs_of_pos hp]
    congr 1
    field_simp
  unfold roundSingle
  rw [e, e]
  exact mul_le_mul_of_nonneg_right h hp.le

theorem roundSingle_half (v : ℚ) : |roundSingle v - v| ≤ singleStep v / 2 := by
  have hp := singleStep_pos v
  have h := Lemmas.roundEven_near (v / singleStep v)
  unfold roundSingle
  have e : |(roundEven (v / singleStep v) : ℚ) * singleStep v - v| = |v / singleStep v - roundEven (v / singleStep v)| * singleStep v := by
    rw [abs_sub_comm, ← abs_of_pos hp, ← abs_mul, abs_of_pos hp]
    congr 1
    field_simp
  rw [e]
  nlinarith

theorem roundSingle_isSingle (v : ℚ) : IsSingle (roundSingle v) := by
  obtain ⟨s, hs, hstep, hv, -⟩ := singleStep_eq v
  refine ⟨roundEven (v / singleStep v), s, ?_, hs, by unfold roundSingle; rw [hstep]⟩
  have hx : |v / singleStep v| < 2 ^ 24 := by
    rw [abs_div, abs_of_pos (singleStep_pos v), div_lt_iff₀ (singleStep_pos v), hstep]
    have : (2 : ℚ) ^ (s + 24) = 2 ^ 24 * 2 ^ s := by rw [zpow_add₀ (by norm_num), mul_comm]; norm_num
    linarith
  have h := Lemmas.roundEven_near (v / singleStep v)
  have h1 : |(roundEven (v / singleStep v) : ℚ)| < 2 ^ 24 + 1 := by
    have := abs_sub_abs_le_abs_sub (roundEven (v / singleStep v) : ℚ) (v / singleStep v)
    rw [abs_sub_comm] at this
    linarith
  have : |roundEven (v / singleStep v)| < 2 ^ 24 + 1 := by exact_mod_cast h1
  omega

theorem roundSingle_nearest (v r : ℚ) (hr : IsSingle r) : |roundSingle v - v| ≤ |r - v| := by
  obtain ⟨m, e, hm, he, rfl⟩ := hr
  obtain ⟨s, hs, hstep, hv, hlow⟩ := singleStep_eq v
  have two : (2 : ℚ) ≠ 0 := by norm_num
  by_cases hse : s ≤ e
  · have hk : (m : ℚ) * 2 ^ e = ((m * 2 ^ (e - s).toNat : ℤ) : ℚ) * singleStep v := by
      rw [hstep]
      push_cast
      rw [mul_assoc]
      congr 1
      rw [← zpow_natCast, ← zpow_add₀ two]
      congr 1
      omega
    rw [hk]
    exact roundSingle_error v _
  · by_cases hv0 : v = 0
    · subst hv0
      have : roundSingle 0 = 0 := by simp [roundSingle, roundEven]
      rw [this, sub_self, abs_zero]
      exact abs_nonneg _
    · have hlow := (hlow hv0).resolve_left (by omega)
      have hr : |(m : ℚ) * 2 ^ e| ≤ 2 ^ (s + 23) := by
        rw [abs_mul, abs_of_pos (zpow_pos (by norm_num : (0 : ℚ) < 2) e)]
        have h1 : |(m : ℚ)| ≤ 2 ^ 24 := by exact_mod_cast hm
        have h2 : (2 : ℚ) ^ (e + 24) ≤ 2 ^ (s + 23) := zpow_le_zpow_right₀ (by norm_num) (by omega)
        have h3 : (2 : ℚ) ^ (e + 24) = 2 ^ 24 * 2 ^ e := by rw [zpow_add₀ two, mul_comm]; norm_num
        have h4 : (0 : ℚ) < 2 ^ e := zpow_pos (by norm_num) e
        nlinarith
      have hgrid : (2 : ℚ) ^ (s + 23) = 2 ^ 23 * singleStep v := by rw [hstep, zpow_add₀ two, mul_comm]; norm_num
      rcases lt_or_gt_of_ne hv0 with hneg | hpos
      · have h := roundSingle_error v (-2 ^ 23)
        have e1 : (((-2 ^ 23 : ℤ)) : ℚ) * singleStep v = -2 ^ (s + 23) := by rw [hgrid]; push_cast; ring
        rw [e1] at h
        refine h.trans ?_
        rw [abs_of_neg hneg] at hlow
        rw [abs_of_nonneg (by linarith)]
        have := (abs_le.1 hr).1
        exact le_trans (by linarith) (le_abs_self _)
      · have h := roundSingle_error v (2 ^ 23)
        have e1 : (((2 ^ 23 : ℤ)) : ℚ) * singleStep v = 2 ^ (s + 23) := by rw [hgrid]; push_cast; ring
        rw [e1] at h
        refine h.trans ?_
        rw [abs_of_pos hpos] at hlow
        rw [abs_of_nonpos (by linarith)]
        have := (abs_le.1 hr).2
        exact le_trans (by linarith) (neg_le_abs _)

/-- C178, partial: what the conversion does to a number. The result is a number of single precision, none is closer; numbers of single precision stay, all others
change by at most 2^-24 of themselves (or 2^-150 below 2^-126), and the order of numbers is kept. -/
theorem C178_single_partial (v : ℚ) : IsSingle (roundSingle v) ∧ (∀ r, IsSingle r → |roundSingle v - v| ≤ |r - v|) ∧ (IsSingle v → roundSingle v = v) ∧
    (2 ^ (-126 : ℤ) ≤ |v| → |roundSingle v - v| ≤ 2 ^ (-24 : ℤ) * |v|) ∧ (|v| < 2 ^ (-126 : ℤ) → |roundSingle v - v| ≤ 2 ^ (-150 : ℤ)) ∧
    ∀ w, v ≤ w → roundSingle v ≤ roundSingle w := by
  have two : (2 : ℚ) ≠ 0 := by norm_num
  refine ⟨roundSingle_isSingle v, roundSingle_nearest v, fun h => ?_, fun h => ?_, fun h => ?_, fun w h => ?_⟩
  · have := roundSingle_nearest v v h
    rw [sub_self, abs_zero] at this
    exact sub_eq_zero.1 (abs_nonpos_iff.1 this)
  · obtain ⟨s, hs, hstep, hv, hlow⟩ := singleStep_eq v
    have hv0 : v ≠ 0 := by
      rintro rfl
      rw [abs_zero] at h
      exact absurd (zpow_pos (by norm_num : (0 : ℚ) < 2) (-126)) (not_lt.2 h)
    have hlow : (2 : ℚ) ^ (s + 23) ≤ |v| := by
      rcases hlow hv0 with rfl | h'
      · exact h
      · exact h'
    refine (roundSingle_half v).trans ?_
    rw [hstep]
    have e1 : (2 : ℚ) ^ s / 2 = 2 ^ (-24 : ℤ) * 2 ^ (s + 23) := by
      rw [← zpow_add₀ two]
      have : (-24 : ℤ) + (s + 23) = s - 1 := by ring
      rw [this, zpow_sub_one₀ two]; rfl
    rw [e1]
    exact mul_le_mul_of_nonneg_left hlow (by positivity)
  · obtain ⟨s, hs, hstep, hv, hlow⟩ := singleStep_eq v
    by_cases hv0 : v = 0
    · subst hv0
      have : roundSingle 0 = 0 := by simp [roundSingle, roundEven]
      rw [this, sub_self, abs_zero]
      exact (zpow_pos (by norm_num) _).le
    · have hs' : s = -149 := by
        rcases hlow hv0 with h' | h'
        · exact h'
        · have := lt_of_le_of_lt h' h
          have := (zpow_lt_zpow_iff_right₀ (by norm_num : (1 : ℚ) < 2)).1 this
          omega
      refine (roundSingle_half v).trans ?_
      rw [hstep, hs']
      norm_num
  · rcases h.lt_or_eq with h | rfl
    · by_contra hlt
      rw [not_le] at hlt
      have h1 := roundSingle_nearest v _ (roundSingle_isSingle w)
      have h2 := roundSingle_nearest w _ (roundSingle_isSingle v)
      rcases abs_cases (roundSingle v - v) with h3 | h3 <;> rcases abs_cases (roundSingle w - v) with h4 | h4 <;>
        rcases abs_cases (roundSingle w - w) with h5 | h5 <;> rcases abs_cases (roundSingle v - w) with h6 | h6 <;> linarith
    · exact le_refl _

example : IsSingle (5 / 2) ∧ (2 : ℚ) ^ (-126 : ℤ) ≤ |(1 / 10 : ℚ)| := by
  constructor
  · exact ⟨5, -1, by norm_num, by norm_num, by norm_num⟩
  · rw [abs_of_pos (by norm_num)]
    norm_num

/-- halfway between two numbers of single precision -/
theorem roundSingle_halfway (n : Nat) : 2 ^ n ≤ |roundSingle (2 ^ (24 + n) + 2 ^ n) - (2 ^ (24 + n) + 2 ^ n)| := by
  have hn : (0 : ℚ) < 2 ^ n := by positivity
  have hpos : (0 : ℚ) < 2 ^ (24 + n) + 2 ^ n := by positivity
  have hlog : Int.log 2 (2 ^ (24 + n) + 2 ^ n : ℚ) = 24 + n := by
    apply le_antisymm
    · have h := (Int.lt_zpow_iff_log_lt (b := 2) (by norm_num) (x := 25 + n) hpos).1 (by
        push_cast
        have : (2 : ℚ) ^ ((25 : ℤ) + n) = 2 * 2 ^ (24 + n) := by
          have e : ((25 : ℤ) + n) = ((24 + n + 1 : ℕ) : ℤ) := by push_cast; ring
          rw [e, zpow_natCast, pow_succ]; ring
        rw [this, pow_add]
        linarith)
      omega
    · refine (Int.zpow_le_iff_le_log (b := 2) (by norm_num) hpos).1 ?_
      push_cast
      have : (2 : ℚ) ^ ((24 : ℤ) + n) = 2 ^ (24 + n) := by
        have e : ((24 : ℤ) + n) = ((24 + n : ℕ) : ℤ) := by push_cast; ring
        rw [e, zpow_natCast]
      rw [this]
      linarith
  have hstep : singleStep (2 ^ (24 + n) + 2 ^ n) = 2 * 2 ^ n := by
    unfold singleStep
    rw [abs_of_pos hpos, hlog, max_eq_left (by omega)]
    have e : ((24 : ℤ) + n - 23) = ((n + 1 : ℕ) : ℤ) := by push_cast; ring
    rw [e, zpow_natCast, pow_succ]; ring
  unfold roundSingle
  rw [hstep]
  generalize roundEven _ = k
  have e : (k : ℚ) * (2 * 2 ^ n) - (2 ^ (24 + n) + 2 ^ n) = ((2 * k - 2 ^ 24 - 1 : ℤ) : ℚ) * 2 ^ n := by
    push_cast
    rw [pow_add]; ring
  rw [e, abs_mul, abs_of_pos hn]
  have h1 : (1 : ℚ) ≤ |((2 * k - 2 ^ 24 - 1 : ℤ) : ℚ)| := by
    have : 1 ≤ |2 * k - 2 ^ 24 - 1| := Int.one_le_abs (by omega)
    exact_mod_cast this
  nlinarith

/-- a frame with one charge -/
def oneCharge (q : ℚ) : TypedFrame := ⟨1, [("charge", ⟨.float64, [some q]⟩)]⟩

theorem oneCharge_joined (q : ℚ) : Dict.get? (joinFrames [oneCharge q]) "charge" = some ⟨.float64, [some q]⟩ := rfl

/-- C178 is false of DL1 files with every version of pandas that converts to single precision only within a tolerance: for each tolerance there are two charges
which are stored if they are written together and end the program with `ValueError` if the memory is full between them. -/
theorem C178_tolerance_false (tol : ℚ) (h0 : 0 ≤ tol) (n : Nat) (h : tol < 2 ^ n) :
    (frameSession (dl1Column (some tol)) [(oneCharge 0, false), (oneCharge (2 ^ (24 + n) + 2 ^ n), false)] ⟨none, []⟩).2 = none ∧
      (frameSession (dl1Column (some tol)) [(oneCharge 0, true), (oneCharge (2 ^ (24 + n) + 2 ^ n), false)] ⟨none, []⟩).2 = some .valueError := by
  constructor
  · rw [C178_exactly_partial]
    intro g hg g' hg' k
    simp only [groupsOf, List.nil_append, List.cons_append, List.cons_ne_self, if_false, reduceCtorEq, List.mem_singleton] at hg hg'
    rw [hg, hg']
  · have hne : (frameSession (dl1Column (some tol)) [(oneCharge 0, true), (oneCharge (2 ^ (24 + n) + 2 ^ n), false)] ⟨none, []⟩).2 ≠ none := by
      rw [Ne, C178_exactly_partial]
      intro hall
      have := hall [oneCharge 0] (by simp [groupsOf]) [oneCharge (2 ^ (24 + n) + 2 ^ n)] (by simp [groupsOf]) "charge"
      unfold groupColumn at this
      rw [oneCharge_joined, oneCharge_joined] at this
      have hz : roundSingle 0 = 0 := by simp [roundSingle, roundEven]
      have c1 : closeEnough (some tol) [some 0] = true := by simp [closeEnough, hz, h0]
      have c2 : closeEnough (some tol) [some (2 ^ (24 + n) + 2 ^ n)] = false := by
        have := roundSingle_halfway n
        simp only [closeEnough, List.all_cons, List.all_nil, Bool.and_true, decide_eq_false_iff_not, not_le]
        linarith
      simp only [dl1Column, c1, c2, Option.map_some] at this
      simp at this
    exact (C178_failure_partial _ _ hne).1

/-- the tolerance of pandas 1.5 and 2 -/
example : (0 : ℚ) ≤ 5 / 10000 ∧ (5 / 10000 : ℚ) < 2 ^ 0 := by norm_num

end Verif.Props
