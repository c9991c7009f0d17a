import Mathlib.Tactic.NormNum
import Mathlib.Tactic.Ring
import Verif.Model.Figures
import Verif.Py.DictLemmas

/-!
# C161, C162: the settings a plotter leaves behind and the figures it leaves open
-/

namespace Verif.Props

open Verif.Py Verif.Model

/-! ### settings -/

theorem plotterRc_nodup (b : Bool) : (Dict.keys (plotterRc b)).Nodup := by
  unfold plotterRc Dict.keys
  simp only [List.map_cons, List.map_nil]
  decide

theorem talkRc_nodup : (Dict.keys talkRc).Nodup := by decide

/-- the names every plotter sets -/
noncomputable def everyName : List String := Dict.keys (plotterRc false)

theorem plotterRc_keys (b : Bool) : Dict.keys (plotterRc b) = everyName := rfl

theorem talk_keys : ∀ key ∈ Dict.keys talkRc, key = "font.family" ∨ key ∈ everyName := by
  unfold everyName plotterRc Dict.keys
  simp only [List.map_cons, List.map_nil]
  decide

/-- what a constructor sets, whatever the state before -/
structure SetsRc (talk : Bool) (f : Pyplot → Pyplot × Figure) (own : String → Option RcValue) : Prop where
  get : ∀ s key, Dict.get? (f s).1.rc key = (own key).or (Dict.get? s.rc key)
  every : ∀ key ∈ everyName, (own key).isSome
  only : ∀ key, (own key).isSome → key ∈ everyName ∨ key = "font.family"
  family : own "font.family" = if talk then some (.text "Latin Modern Roman") else none

theorem family_not_every : "font.family" ∉ everyName := by
  unfold everyName plotterRc Dict.keys
  simp only [List.map_cons, List.map_nil]
  decide

theorem init_rc (s : Pyplot) (ax : Option Figure) (b talk : Bool) :
    (plotterInit s ax b talk).1.rc = Dict.update s.rc (if talk then Dict.update (plotterRc b) talkRc else plotterRc b) := by
  unfold plotterInit
  cases ax <;> rfl

theorem get?_some_iff (d : Dict String RcValue) (key : String) : (Dict.get? d key).isSome ↔ key ∈ Dict.keys d := by
  rw [Dict.mem_keys_iff, Option.isSome_iff_exists]

theorem init_sets (ax : Option Figure) (b talk : Bool) :
    SetsRc talk (fun s => plotterInit s ax b talk) fun key => Dict.get? (if talk then Dict.update (plotterRc b) talkRc else plotterRc b) key := by
  have hn : (Dict.keys (if talk then Dict.update (plotterRc b) talkRc else plotterRc b)).Nodup := by
    cases talk
    · exact plotterRc_nodup b
    · exact Dict.nodup_keys_update _ _ (plotterRc_nodup b)
  refine ⟨fun s key => ?_, fun key hk => ?_, fun key hk => ?_, ?_⟩
  · rw [init_rc, Dict.get?_update _ _ _ hn]
  · rw [get?_some_iff]
    cases talk
    · exact hk
    · exact (Dict.mem_keys_update _ _ _).2 (Or.inr hk)
  · rw [get?_some_iff] at hk
    cases talk
    · exact Or.inl hk
    · rcases (Dict.mem_keys_update _ _ _).1 hk with h | h
      · exact (talk_keys key h).symm
      · exact Or.inl h
  · cases talk
    · exact (Dict.get?_eq_none_iff _ _).2 family_not_every
    · rw [if_pos rfl, Dict.get?_update _ _ _ talkRc_nodup]
      rfl

theorem sets_more (talk : Bool) (f g : Pyplot → Pyplot × Figure) (own : String → Option RcValue) (h : SetsRc talk f own) (d : Dict String RcValue) (hd : (Dict.keys d).Nodup)
    (he : ∀ key ∈ Dict.keys d, key ∈ everyName) (hg : ∀ s, (g s).1.rc = Dict.update (f s).1.rc d) : SetsRc talk g fun key => (Dict.get? d key).or (own key) := by
  refine ⟨fun s key => ?_, fun key hk => ?_, fun key hk => ?_, ?_⟩
  · rw [hg, Dict.get?_update _ _ _ hd, h.get, Option.or_assoc]
  · cases hq : Dict.get? d key with
    | none => simpa using h.every key hk
    | some v => simp
  · cases hq : Dict.get? d key with
    | none => rw [hq] at hk; exact h.only key (by simpa using hk)
    | some v => exact Or.inl (he key ((Dict.mem_keys_iff _ _).2 ⟨v, hq⟩))
  · have : Dict.get? d "font.family" = none := (Dict.get?_eq_none_iff _ _).2 fun hm => family_not_every (he _ hm)
    rw [this, Option.none_or, h.family]

theorem outward_every : ∀ key ∈ Dict.keys ([("xtick.direction", .text "out"), ("ytick.direction", .text "out")] : Dict String RcValue), key ∈ everyName := by
  unfold everyName plotterRc Dict.keys
  simp only [List.map_cons, List.map_nil]
  decide

theorem thin_every : ∀ key ∈ Dict.keys ([("axes.linewidth", .num (1 / 10))] : Dict String RcValue), key ∈ everyName := by
  unfold everyName plotterRc Dict.keys
  simp only [List.map_cons, List.map_nil]
  decide

theorem sets_then (talk : Bool) (f g k : Pyplot → Pyplot × Figure) (own own' : String → Option RcValue) (h : SetsRc talk f own) (h' : SetsRc false g own')
    (hk : ∀ s, ∃ t, t.rc = (f s).1.rc ∧ (k s).1.rc = (g t).1.rc) : SetsRc talk k fun key => (own' key).or (own key) := by
  refine ⟨fun s key => ?_, fun key hm => ?_, fun key hs => ?_, ?_⟩
  · obtain ⟨t, t1, t2⟩ := hk s
    rw [t2, h'.get, t1, h.get, Option.or_assoc]
  · have := h'.every key hm
    obtain ⟨v, hv⟩ := Option.isSome_iff_exists.1 this
    simp [hv]
  · cases hq : own' key with
    | none => rw [hq] at hs; exact h.only key (by simpa using hs)
    | some v => exact h'.only key (by simp [hq])
  · have := h'.family
    rw [if_neg (by simp)] at this
    rw [this, Option.none_or, h.family]

attribute [local irreducible] plotterInit Dict.update

/-- every constructor sets the same names to values of its own -/
theorem construct_sets (k : PlotterKind) (b talk : Bool) : ∃ own, ∀ ax, SetsRc talk (fun s => constructPlotter s k ax b talk) own := by
  have hout : (Dict.keys ([("xtick.direction", .text "out"), ("ytick.direction", .text "out")] : Dict String RcValue)).Nodup := by decide
  cases k with
  | plain => exact ⟨_, fun ax => init_sets ax b talk⟩
  | waveform => exact ⟨_, fun ax => init_sets ax b talk⟩
  | resolution => exact ⟨_, fun ax => init_sets ax b talk⟩
  | imshow => exact ⟨_, fun ax => init_sets ax b talk⟩
  | image => exact ⟨_, fun ax => sets_more talk _ _ _ (init_sets ax b talk) _ hout outward_every fun s => rfl⟩
  | spectrum =>
    have := fun ax => init_sets ax b talk
    exact ⟨_, fun ax => ⟨(this ax).get, (this ax).every, (this ax).only, (this ax).family⟩⟩
  | modules =>
    have := fun ax => init_sets ax b talk
    exact ⟨_, fun ax => ⟨(this ax).get, (this ax).every, (this ax).only, (this ax).family⟩⟩
  | pixels => exact ⟨_, fun ax => sets_more talk _ _ _ (init_sets ax b talk) _ (by decide) thin_every fun s => rfl⟩
  | speCamera =>
    have himg : ∀ f, SetsRc false (fun s => (setRc (plotterInit s (some f) false false).1 [("xtick.direction", .text "out"), ("ytick.direction", .text "out")], f)) _ :=
      fun f => sets_more false _ _ _ (init_sets (some f) false false) _ hout outward_every fun s => rfl
    exact ⟨_, fun ax => sets_then talk _ _ _ _ _ (sets_then talk _ _
      (fun s => let t := newFigure (plotterInit s ax b talk).1
        (setRc (plotterInit t.1 (some t.2) false false).1 [("xtick.direction", .text "out"), ("ytick.direction", .text "out")], t.2)) _ _ (init_sets ax b talk) (himg (.own 0))
        fun s => ⟨(newFigure (plotterInit s ax b talk).1).1, rfl, by simp only [setRc, init_rc]⟩) (himg (.own 0))
        fun s => ⟨_, rfl, by simp only [constructPlotter, setRc, init_rc]⟩⟩

/-- the plotter of a call was made, with `a.talk` -/
def Talked (s : Pyplot) (act : PlotAct) : Prop := ∃ k a s', act = .make k a ∧ a.talk = some true ∧ plotStep s act = .ok s'

/-- a successful call is one constructor -/
theorem make_ok (s s' : Pyplot) (k : PlotterKind) (a : PlotterArgs) (h : plotStep s (.make k a) = .ok s') :
    k.binds a = true ∧ ∃ ax, (ax = none ↔ a.ax = none) ∧ (∀ x, a.ax = some x → ax = axesFigure s x) ∧
      s'.rc = (constructPlotter s k ax (a.sidebyside.getD false) (a.talk.getD false)).1.rc ∧
      s'.opened = (constructPlotter s k ax (a.sidebyside.getD false) (a.talk.getD false)).1.opened ∧
      s'.count = (constructPlotter s k ax (a.sidebyside.getD false) (a.talk.getD false)).1.count ∧
      s'.plotters = (constructPlotter s k ax (a.sidebyside.getD false) (a.talk.getD false)).1.plotters ++
        [(constructPlotter s k ax (a.sidebyside.getD false) (a.talk.getD false)).2] := by
  simp only [plotStep] at h
  cases hb : k.binds a with
  | false => rw [hb] at h; simp at h
  | true =>
    rw [hb] at h
    simp only [Bool.true_eq_false, if_false] at h
    cases hax : a.ax with
    | none =>
      rw [hax] at h
      obtain rfl := Except.ok.inj h
      exact ⟨rfl, none, by simp, by simp, rfl, rfl, rfl, rfl⟩
    | some x =>
      rw [hax] at h
      cases hf : axesFigure s x with
      | none => simp only [hf] at h; cases h
      | some f =>
        simp only [hf] at h
        obtain rfl := Except.ok.inj h
        exact ⟨rfl, some f, by simp, by rintro y ⟨⟩; exact hf.symm, rfl, rfl, rfl, rfl⟩

theorem close_rc (s s' : Pyplot) (i : Nat) (h : plotStep s (.close i) = .ok s') : s'.rc = s.rc := by
  unfold plotStep at h
  cases hp : s.plotters[i]? with
  | none => simp only [hp] at h; cases h
  | some f =>
    simp only [hp] at h
    obtain rfl := Except.ok.inj h
    rfl

/-- names no plotter sets, after any run -/
theorem run_rc_other (acts : List PlotAct) : ∀ s key, key ∉ everyName → key ≠ "font.family" → Dict.get? (plotRun s acts).rc key = Dict.get? s.rc key := by
  induction acts with
  | nil => intros; rfl
  | cons act acts ih =>
    intro s key h1 h2
    unfold plotRun
    cases hs : plotStep s act with
    | error e => exact ih s key h1 h2
    | ok s' =>
      rw [ih s' key h1 h2]
      cases act with
      | close i => rw [close_rc s s' i hs]
      | make k a =>
        obtain ⟨-, ax, -, -, hrc, -⟩ := make_ok s s' k a hs
        obtain ⟨own, ho⟩ := construct_sets k (a.sidebyside.getD false) (a.talk.getD false)
        have h0 : own key = none := by
          cases hq : own key with
          | none => rfl
          | some v =>
            rcases (ho ax).only key (by simp [hq]) with h | h
            · exact absurd h h1
            · exact absurd h h2
        have := (ho ax).get s key
        rw [h0, Option.none_or] at this
        rw [hrc, this]

/-- C161, what holds: whatever plotters were made and closed before, a plotter leaves the settings it would leave in a new session, except the name of the font. -/
theorem C161_partial (s s1 s2 : Pyplot) (acts : List PlotAct) (k : PlotterKind) (a b : PlotterArgs) (hs : b.sidebyside = a.sidebyside) (ht : b.talk = a.talk)
    (h1 : plotStep (plotRun s acts) (.make k a) = .ok s1) (h2 : plotStep s (.make k b) = .ok s2) (key : String) (hk : key ≠ "font.family") :
    Dict.get? s1.rc key = Dict.get? s2.rc key := by
  obtain ⟨-, ax, -, -, hrc, -⟩ := make_ok _ _ k a h1
  obtain ⟨-, ax', -, -, hrc', -⟩ := make_ok _ _ k b h2
  rw [hs, ht] at hrc'
  obtain ⟨own, ho⟩ := construct_sets k (a.sidebyside.getD false) (a.talk.getD false)
  have e1 := (ho ax).get (plotRun s acts) key
  have e2 := (ho ax').get s key
  rw [hrc, hrc', e1, e2]
  cases hq : own key with
  | some v => rfl
  | none =>
    have : key ∉ everyName := fun hm => by
      have := (ho ax).every key hm
      rw [hq] at this
      cases this
    rw [run_rc_other acts s key this hk]

/-- the name of the font is that of the session until a plotter for a talk is made, and that of talks ever after -/
theorem C161_family (acts : List PlotAct) : ∀ s, 
    ((∃ pre act post, acts = pre ++ act :: post ∧ Talked (plotRun s pre) act) →
      Dict.get? (plotRun s acts).rc "font.family" = some (.text "Latin Modern Roman")) ∧
    ((¬ ∃ pre act post, acts = pre ++ act :: post ∧ Talked (plotRun s pre) act) →
      Dict.get? (plotRun s acts).rc "font.family" = Dict.get? s.rc "font.family") := by
  have hgo : ∀ (acts : List PlotAct) (s : Pyplot), Dict.get? s.rc "font.family" = some (.text "Latin Modern Roman") →
      Dict.get? (plotRun s acts).rc "font.family" = some (.text "Latin Modern Roman") := by
    intro acts
    induction acts with
    | nil => exact fun s h => h
    | cons act acts ih =>
      intro s h
      unfold plotRun
      cases hs : plotStep s act with
      | error e => exact ih s h
      | ok s' =>
        refine ih s' ?_
        cases act with
        | close i => rw [close_rc s s' i hs]; exact h
        | make k a =>
          obtain ⟨-, ax, -, -, hrc, -⟩ := make_ok s s' k a hs
          obtain ⟨own, ho⟩ := construct_sets k (a.sidebyside.getD false) (a.talk.getD false)
          have e := (ho ax).get s "font.family"
          rw [hrc, e, (ho ax).family]
          cases a.talk.getD false
          · exact h
          · rfl
  induction acts with
  | nil =>
    intro s
    refine ⟨?_, fun _ => rfl⟩
    rintro ⟨pre, act, post, h, -⟩
    simp at h
  | cons act acts ih =>
    intro s
    have hcons : plotRun s (act :: acts) = match plotStep s act with
      | .error _ => plotRun s acts
      | .ok s => plotRun s acts := rfl
    have hshift : ∀ t, plotRun s [act] = t →
        ((∃ pre x post, act :: acts = pre ++ x :: post ∧ Talked (plotRun s pre) x) ↔
          Talked s act ∨ ∃ pre x post, acts = pre ++ x :: post ∧ Talked (plotRun t pre) x) := by
      rintro t rfl
      have hrun : ∀ pre, plotRun s (act :: pre) = plotRun (plotRun s [act]) pre := by
        intro pre
        simp only [plotRun]
        cases plotStep s act <;> rfl
      constructor
      · rintro ⟨pre, x, post, h, ht⟩
        cases pre with
        | nil =>
          simp only [List.nil_append, List.cons.injEq] at h
          obtain ⟨rfl, rfl⟩ := h
          exact Or.inl ht
        | cons y pre =>
          simp only [List.cons_append, List.cons.injEq] at h
          obtain ⟨rfl, rfl⟩ := h
          rw [hrun] at ht
          exact Or.inr ⟨pre, x, post, rfl, ht⟩
      · rintro (h | ⟨pre, x, post, rfl, ht⟩)
        · exact ⟨[], act, acts, rfl, h⟩
        · exact ⟨act :: pre, x, post, rfl, by rw [hrun]; exact ht⟩
    cases hs : plotStep s act with
    | error e =>
      have hone : plotRun s [act] = s := by simp only [plotRun, hs]
      have hno : ¬ Talked s act := by
        rintro ⟨k, a, s', -, -, h⟩
        rw [hs] at h
        cases h
      rw [hshift s hone, hcons, hs]
      simpa [hno] using ih s
    | ok s' =>
      have hone : plotRun s [act] = s' := by simp only [plotRun, hs]
      rw [hshift s' hone, hcons, hs]
      have keep : ¬ Talked s act → Dict.get? s'.rc "font.family" = Dict.get? s.rc "font.family" := by
        intro hno
        cases act with
        | close i => rw [close_rc s s' i hs]
        | make k a =>
          obtain ⟨-, ax, -, -, hrc, -⟩ := make_ok s s' k a hs
          obtain ⟨own, ho⟩ := construct_sets k (a.sidebyside.getD false) (a.talk.getD false)
          have e := (ho ax).get s "font.family"
          rw [hrc, e, (ho ax).family]
          cases htk : a.talk with
          | none => rfl
          | some t =>
            cases t with
            | false => rfl
            | true => exact absurd ⟨k, a, s', rfl, htk, hs⟩ hno
      constructor
      · rintro (⟨k, a, t, rfl, htk, -⟩ | h)
        · refine hgo acts s' ?_
          obtain ⟨-, ax, -, -, hrc, -⟩ := make_ok s s' k a hs
          obtain ⟨own, ho⟩ := construct_sets k (a.sidebyside.getD false) (a.talk.getD false)
          have e := (ho ax).get s "font.family"
          rw [hrc, e, (ho ax).family, htk]
          rfl
        · exact (ih s').1 h
      · intro h
        push Not at h
        have : ¬ ∃ pre x post, acts = pre ++ x :: post ∧ Talked (plotRun s' pre) x := by
          rintro ⟨pre, x, post, h1, h2⟩
          exact h.2 pre x post h1 h2
        simp only
        rw [(ih s').2 this, keep h.1]

/-- a session without plotters -/
def freshSession : Pyplot := ⟨[("font.family", .text "sans-serif")], [], 0, []⟩

/-- C161 is false as stated: after a plotter for a talk, the plotter of a resolution leaves another font than it does in a new session. -/
theorem C161_false : ∃ (s s1 s2 : Pyplot) (acts : List PlotAct) (k : PlotterKind) (a : PlotterArgs), plotStep (plotRun s acts) (.make k a) = .ok s1 ∧ plotStep s (.make k a) = .ok s2 ∧
    Dict.get? s1.rc "font.family" ≠ Dict.get? s2.rc "font.family" := by
  refine ⟨freshSession, _, _, [.make .waveform ⟨none, none, some true⟩], .resolution, ⟨none, none, none⟩, rfl, rfl, ?_⟩
  have h1 := (C161_family [.make .waveform ⟨none, none, some true⟩, .make .resolution ⟨none, none, none⟩] freshSession).1
    ⟨[], _, [.make .resolution ⟨none, none, none⟩], rfl, .waveform, ⟨none, none, some true⟩, _, rfl, rfl, rfl⟩
  have h2 := (C161_family [.make .resolution ⟨none, none, none⟩] freshSession).2 (by
    rintro ⟨pre, act, post, h, k, a, s', rfl, ht, -⟩
    cases pre with
    | nil =>
      simp only [List.nil_append, List.cons.injEq, PlotAct.make.injEq] at h
      rw [← h.1.2] at ht
      cases ht
    | cons y pre => simp at h)
  intro h
  have h3 := (h1.symm.trans h).trans h2
  simp [freshSession, Dict.get?] at h3

theorem after_init (s : Pyplot) (ax : Option Figure) (b talk : Bool) (key : String) (v : RcValue)
    (h : Dict.get? (if talk then Dict.update (plotterRc b) talkRc else plotterRc b) key = some v) : Dict.get? (plotterInit s ax b talk).1.rc key = some v := by
  have := (init_sets ax b talk).get s key
  rw [h] at this
  exact this

/-- The settings a plotter leaves: letters of size 12 for a talk and 8 otherwise, ticks outward for images of the camera, thin axes for the waveforms of all pixels, and
figures in the golden ratio, two thirds as large side by side. -/
theorem C161_values (s s' : Pyplot) (k : PlotterKind) (a : PlotterArgs) (h : plotStep s (.make k a) = .ok s') :
    Dict.get? s'.rc "font.size" = some (.num (if a.talk = some true then 12 else 8)) ∧
    Dict.get? s'.rc "xtick.direction" = some (.text (if k = .image ∨ k = .speCamera then "out" else "in")) ∧
    Dict.get? s'.rc "ytick.direction" = some (.text (if k = .image ∨ k = .speCamera then "out" else "in")) ∧
    Dict.get? s'.rc "axes.linewidth" = some (.num (if k = .pixels then 1 / 10 else 1 / 2)) ∧
    ∃ w height, Dict.get? s'.rc "figure.figsize" = some (.size w height) ∧ w = (if a.sidebyside = some true then 0.6 else 0.9) * (421.10046 / 72.27) ∧
      height * ((1 + Real.sqrt 5) / 2) = w := by
  obtain ⟨hb, ax, -, -, hrc, -⟩ := make_ok s s' k a h
  have hsq : Real.sqrt 5 * Real.sqrt 5 = 5 := Real.mul_self_sqrt (by norm_num)
  have hsize : ∀ b : Bool, (getFigsize b).1 = (if b then 0.6 else 0.9) * (421.10046 / 72.27) ∧ (getFigsize b).2 * ((1 + Real.sqrt 5) / 2) = (getFigsize b).1 := by
    intro b
    have hg : ∀ c : ℝ, (goldenFigsize c).1 = c * (421.10046 / 72.27) ∧ (goldenFigsize c).2 * ((1 + Real.sqrt 5) / 2) = (goldenFigsize c).1 := by
      intro c
      unfold goldenFigsize
      constructor
      · simp only; ring
      · simp only
        have : (Real.sqrt 5 - 1) / 2 * ((1 + Real.sqrt 5) / 2) = 1 := by
          have : (Real.sqrt 5 - 1) / 2 * ((1 + Real.sqrt 5) / 2) = (Real.sqrt 5 * Real.sqrt 5 - 1) / 4 := by ring
          rw [this, hsq]
          norm_num
        rw [mul_assoc, this, mul_one]
    cases b
    · exact hg 0.9
    · exact hg 0.6
  have hinit : ∀ (s : Pyplot) (ax : Option Figure) (b talk : Bool),
      Dict.get? (plotterInit s ax b talk).1.rc "font.size" = some (.num (if talk = true then 12 else 8)) ∧
      Dict.get? (plotterInit s ax b talk).1.rc "xtick.direction" = some (.text "in") ∧
      Dict.get? (plotterInit s ax b talk).1.rc "ytick.direction" = some (.text "in") ∧
      Dict.get? (plotterInit s ax b talk).1.rc "axes.linewidth" = some (.num (1 / 2)) ∧
      Dict.get? (plotterInit s ax b talk).1.rc "figure.figsize" = some (.size (getFigsize b).1 (getFigsize b).2) := by
    intro s ax b talk
    cases talk
    · exact ⟨after_init s ax b false _ _ rfl, after_init s ax b false _ _ rfl, after_init s ax b false _ _ rfl, after_init s ax b false _ _ rfl, after_init s ax b false _ _ rfl⟩
    · refine ⟨after_init s ax b true _ _ ?_, after_init s ax b true _ _ ?_, after_init s ax b true _ _ ?_, after_init s ax b true _ _ ?_, after_init s ax b true _ _ ?_⟩ <;>
        · rw [if_pos rfl, Dict.get?_update _ _ _ talkRc_nodup]
          rfl
  have hbool : ∀ o : Option Bool, o.getD false = true ↔ o = some true := by
    intro o
    cases o with
    | none => simp
    | some b => cases b <;> simp
  generalize hB : a.sidebyside.getD false = B at hrc
  generalize hT : a.talk.getD false = T at hrc
  have eB : (if a.sidebyside = some true then (0.6 : ℝ) else 0.9) = if B then 0.6 else 0.9 := by
    rw [← hB]
    by_cases hq : a.sidebyside = some true
    · rw [if_pos hq, if_pos ((hbool _).2 hq)]
    · rw [if_neg hq, if_neg (fun h => hq ((hbool _).1 h))]
  have eT : (if a.talk = some true then (12 : ℚ) else 8) = if T then 12 else 8 := by
    rw [← hT]
    by_cases hq : a.talk = some true
    · rw [if_pos hq, if_pos ((hbool _).2 hq)]
    · rw [if_neg hq, if_neg (fun h => hq ((hbool _).1 h))]
  rw [eB, eT, hrc]
  have hout : (Dict.keys ([("xtick.direction", .text "out"), ("ytick.direction", .text "out")] : Dict String RcValue)).Nodup := by decide
  have hplain : k ≠ .image → k ≠ .pixels → k ≠ .speCamera →
      (constructPlotter s k ax B T).1.rc = (plotterInit s ax B T).1.rc := by
    intro n1 n2 n3
    cases k <;> first | rfl | exact absurd rfl n1 | exact absurd rfl n2 | exact absurd rfl n3
  obtain ⟨i1, i2, i3, i4, i5⟩ := hinit s ax B T
  by_cases n1 : k = .image
  · subst n1
    have : (constructPlotter s .image ax B T).1.rc = Dict.update (plotterInit s ax B T).1.rc [("xtick.direction", .text "out"), ("ytick.direction", .text "out")] := rfl
    simp only [this, Dict.get?_update _ _ _ hout]
    exact ⟨i1, rfl, rfl, i4, _, _, i5, (hsize B).1, (hsize B).2⟩
  · by_cases n2 : k = .pixels
    · subst n2
      have : (constructPlotter s .pixels ax B T).1.rc = Dict.update (plotterInit s ax B T).1.rc [("axes.linewidth", .num (1 / 10))] := rfl
      have hnd : (Dict.keys ([("axes.linewidth", .num (1 / 10))] : Dict String RcValue)).Nodup := by decide
      simp only [this, Dict.get?_update _ _ _ hnd]
      exact ⟨i1, i2, i3, rfl, _, _, i5, (hsize B).1, (hsize B).2⟩
    · by_cases n3 : k = .speCamera
      · subst n3
        have hB' : B = false := by
          cases hq : a.sidebyside with
          | none => rw [← hB, hq]; rfl
          | some b => rw [PlotterKind.binds, hq] at hb; simp [PlotterKind.accepts] at hb
        have hT' : T = false := by
          cases hq : a.talk with
          | none => rw [← hT, hq]; rfl
          | some b => rw [PlotterKind.binds, hq] at hb; simp [PlotterKind.accepts] at hb
        subst hB' hT'
        obtain ⟨t, f, ht⟩ : ∃ t f, (constructPlotter s .speCamera ax false false).1.rc =
            Dict.update (plotterInit t (some f) false false).1.rc [("xtick.direction", .text "out"), ("ytick.direction", .text "out")] := ⟨_, _, rfl⟩
        obtain ⟨j1, j2, j3, j4, j5⟩ := hinit t (some f) false false
        simp only [ht, Dict.get?_update _ _ _ hout]
        exact ⟨j1, rfl, rfl, j4, _, _, j5, (hsize false).1, (hsize false).2⟩
      · have hne : ¬ (k = .image ∨ k = .speCamera) := by
          rintro (h | h)
          · exact n1 h
          · exact n3 h
        rw [hplain n1 n2 n3, if_neg hne, if_neg n2]
        exact ⟨i1, i2, i3, i4, _, _, i5, (hsize B).1, (hsize B).2⟩

/-- three plotters: an image for a talk, the waveforms of all pixels and the curve of a resolution: the last one leaves its own settings, but the font of the talk -/
example : ∃ s', plotStep (plotRun freshSession [.make .image ⟨none, some true, some true⟩, .make .pixels ⟨none, none, none⟩]) (.make .resolution ⟨none, none, none⟩) = .ok s' ∧
    Dict.get? s'.rc "font.size" = some (.num 8) ∧ Dict.get? s'.rc "xtick.direction" = some (.text "in") ∧ Dict.get? s'.rc "axes.linewidth" = some (.num (1 / 2)) ∧
    Dict.get? (plotRun freshSession [.make .image ⟨none, some true, some true⟩, .make .pixels ⟨none, none, none⟩, .make .resolution ⟨none, none, none⟩]).rc "font.family" =
      some (.text "Latin Modern Roman") := by
  refine ⟨_, rfl, ?_⟩
  obtain ⟨h1, h2, -, h3, -⟩ := C161_values (plotRun freshSession [.make .image ⟨none, some true, some true⟩, .make .pixels ⟨none, none, none⟩]) _ .resolution ⟨none, none, none⟩ rfl
  exact ⟨h1, h2, h3, (C161_family _ freshSession).1 ⟨[], _, _, rfl, .image, ⟨none, some true, some true⟩, _, rfl, rfl, rfl⟩⟩

/-! ### figures -/

/-- the plotters that replace the figure of their base class without closing it -/
def leaves : PlotAct → Bool
  | .make k a => (k = .modules || k = .pixels || k = .speCamera) && a.ax.isNone && a.sidebyside.isNone && a.talk.isNone
  | .close _ => false

/-- the figures a successful constructor opens and closes -/
theorem make_effect (s s' : Pyplot) (k : PlotterKind) (a : PlotterArgs) (h : plotStep s (.make k a) = .ok s') :
    (leaves (.make k a) = true ∧ s'.opened = s.opened ++ [.made s.count, .made (s.count + 1)] ∧ s'.count = s.count + 2 ∧ s'.plotters = s.plotters ++ [.made (s.count + 1)]) ∨
    (leaves (.make k a) = false ∧ ∃ g n, ((g ∈ s.plotters ∨ ∃ j, g = .own j) ∧ n = s.count ∨ g = .made s.count ∧ n = s.count + 1) ∧
      s'.count = n + 1 ∧ s'.opened = s.opened.filter (· ≠ g) ++ [.made n] ∧ s'.plotters = s.plotters ++ [.made n]) ∨
    (leaves (.make k a) = false ∧ s'.opened = s.opened ++ [.made s.count] ∧ s'.count = s.count + 1 ∧ s'.plotters = s.plotters ++ [.made s.count]) ∨
    (leaves (.make k a) = false ∧ ∃ f, (f ∈ s.plotters ∨ ∃ j, f = .own j) ∧ s'.opened = s.opened ∧ s'.count = s.count ∧ s'.plotters = s.plotters ++ [f]) := by
  obtain ⟨hb, ax, hax, hax', -, ho, hc, hp⟩ := make_ok s s' k a h
  have hfig : ∀ f, ax = some f → f ∈ s.plotters ∨ ∃ j, f = .own j := by
    intro f hf
    cases hx : a.ax with
    | none => rw [hax.2 hx] at hf; cases hf
    | some x =>
      have := hax' x hx
      rw [hf] at this
      cases x with
      | own j => exact Or.inr ⟨j, Option.some.inj this⟩
      | of i => exact Or.inl (List.mem_of_getElem? this.symm)
  generalize a.sidebyside.getD false = B at ho hc hp
  generalize a.talk.getD false = T at ho hc hp
  have hnone : ∀ s : Pyplot, (plotterInit s none B T).1.opened = s.opened ++ [.made s.count] ∧ (plotterInit s none B T).1.count = s.count + 1 ∧
      (plotterInit s none B T).1.plotters = s.plotters ∧ (plotterInit s none B T).2 = .made s.count := by
    intro s
    unfold plotterInit
    exact ⟨rfl, rfl, rfl, rfl⟩
  have hsome : ∀ (s : Pyplot) (f : Figure) (B T : Bool), (plotterInit s (some f) B T).1.opened = s.opened ∧ (plotterInit s (some f) B T).1.count = s.count ∧
      (plotterInit s (some f) B T).1.plotters = s.plotters ∧ (plotterInit s (some f) B T).2 = f := by
    intro s f B T
    unfold plotterInit
    exact ⟨rfl, rfl, rfl, rfl⟩
  obtain ⟨e1, e2, e3, e4⟩ := hnone s
  have hargs : k.accepts = (false, false, false) → a.ax = none ∧ a.sidebyside = none ∧ a.talk = none := by
    intro hk
    unfold PlotterKind.binds at hb
    rw [hk] at hb
    simpa [and_assoc] using hb
  cases k with
  | modules =>
    obtain ⟨a1, a2, a3⟩ := hargs rfl
    have hn := hax.2 a1
    subst hn
    refine Or.inl ⟨by simp [leaves, a1, a2, a3], ?_, ?_, ?_⟩
    · rw [ho]; simp only [constructPlotter, newFigure, e1, e2, List.append_assoc, List.cons_append, List.nil_append]
    · rw [hc]; simp only [constructPlotter, newFigure, e2]
    · rw [hp]; simp only [constructPlotter, newFigure, e2, e3]
  | pixels =>
    obtain ⟨a1, a2, a3⟩ := hargs rfl
    have hn := hax.2 a1
    subst hn
    refine Or.inl ⟨by simp [leaves, a1, a2, a3], ?_, ?_, ?_⟩
    · rw [ho]; simp only [constructPlotter, newFigure, setRc, e1, e2, List.append_assoc, List.cons_append, List.nil_append]
    · rw [hc]; simp only [constructPlotter, newFigure, setRc, e2]
    · rw [hp]; simp only [constructPlotter, newFigure, setRc, e2, e3]
  | speCamera =>
    obtain ⟨a1, a2, a3⟩ := hargs rfl
    have hn := hax.2 a1
    subst hn
    refine Or.inl ⟨by simp [leaves, a1, a2, a3], ?_, ?_, ?_⟩
    · rw [ho]; simp only [constructPlotter, newFigure, setRc, (hsome _ _ _ _).1, e1, e2, List.append_assoc, List.cons_append, List.nil_append]
    · rw [hc]; simp only [constructPlotter, newFigure, setRc, (hsome _ _ _ _).2.1, e2]
    · rw [hp]; simp only [constructPlotter, newFigure, setRc, (hsome _ _ _ _).2.2.1, e2, e3]
  | spectrum =>
    right; left
    refine ⟨rfl, ?_⟩
    cases ax with
    | none =>
      refine ⟨.made s.count, s.count + 1, Or.inr ⟨rfl, rfl⟩, ?_, ?_, ?_⟩
      · rw [hc]; simp only [constructPlotter, newFigure, closeFigure, e2]
      · rw [ho]; simp only [constructPlotter, newFigure, closeFigure, e1, e2, e4, List.filter_append]
        simp
      · rw [hp]; simp only [constructPlotter, newFigure, closeFigure, e2, e3]
    | some f =>
      obtain ⟨f1, f2, f3, f4⟩ := hsome s f B T
      refine ⟨f, s.count, Or.inl ⟨hfig f rfl, rfl⟩, ?_, ?_, ?_⟩
      · rw [hc]; simp only [constructPlotter, newFigure, closeFigure, f2]
      · rw [ho]; simp only [constructPlotter, newFigure, closeFigure, f1, f2, f4]
      · rw [hp]; simp only [constructPlotter, newFigure, closeFigure, f2, f3]
  | plain | waveform | resolution | imshow | image =>
    right; right
    cases ax with
    | none =>
      left
      refine ⟨rfl, ?_, ?_, ?_⟩
      · rw [ho]; simp only [constructPlotter, setRc, e1]
      · rw [hc]; simp only [constructPlotter, setRc, e2]
      · rw [hp]; simp only [constructPlotter, setRc, e3, e4]
    | some f =>
      obtain ⟨f1, f2, f3, f4⟩ := hsome s f B T
      right
      refine ⟨rfl, f, hfig f rfl, ?_, ?_, ?_⟩
      · rw [ho]; simp only [constructPlotter, setRc, f1]
      · rw [hc]; simp only [constructPlotter, setRc, f2]
      · rw [hp]; simp only [constructPlotter, setRc, f3, f4]

/-- what the proof keeps: `L` are the figures left behind, and every other figure that is open belongs to a plotter that will be closed -/
structure Open (s : Pyplot) (acts : List PlotAct) (L : List Figure) : Prop where
  later : ∀ n, .made n ∈ s.opened → .made n ∈ L ∨ ∃ i : Nat, s.plotters[i]? = some (.made n) ∧ .close i ∈ acts
  left : ∀ f ∈ L, f ∈ s.opened ∧ f ∉ s.plotters ∧ ∃ n, f = .made n
  old : ∀ n, .made n ∈ s.opened ∨ .made n ∈ s.plotters → n < s.count
  nodup : L.Nodup ∧ s.opened.Nodup

/-- every plotter made is closed later in the program -/
def AllClosed (s : Pyplot) (acts : List PlotAct) : Prop :=
  ∀ pre k a post s', acts = pre ++ .make k a :: post → plotStep (plotRun s pre) (.make k a) = .ok s' → .close (plotRun s pre).plotters.length ∈ post

theorem allClosed_tail (s t : Pyplot) (act : PlotAct) (acts : List PlotAct) (ht : plotRun s [act] = t) (h : AllClosed s (act :: acts)) : AllClosed t acts := by
  subst ht
  have hrun : ∀ pre, plotRun s (act :: pre) = plotRun (plotRun s [act]) pre := by
    intro pre
    simp only [plotRun]
    cases plotStep s act <;> rfl
  intro pre k a post s' he hs
  rw [← hrun] at hs ⊢
  exact h (act :: pre) k a post s' (by rw [he]; rfl) hs

theorem open_run (acts : List PlotAct) : ∀ s L, Open s acts L → AllClosed s acts →
    ∃ L' : List Figure, L'.length = L.length + acts.countP leaves ∧ L'.Nodup ∧ (plotRun s acts).opened.Nodup ∧ (∀ f ∈ L', ∃ n, f = .made n) ∧
      ∀ n, .made n ∈ (plotRun s acts).opened ↔ .made n ∈ L' := by
  induction acts with
  | nil =>
    intro s L h _
    refine ⟨L, rfl, h.nodup.1, h.nodup.2, fun f hf => (h.left f hf).2.2, fun n => ⟨fun hm => ?_, fun hm => (h.left _ hm).1⟩⟩
    rcases h.later n hm with h | ⟨i, -, h⟩
    · exact h
    · simp at h
  | cons act acts ih =>
    intro s L h hall
    cases hs : plotStep s act with
    | error e =>
      have hone : plotRun s [act] = s := by simp only [plotRun, hs]
      have hrun : plotRun s (act :: acts) = plotRun s acts := by simp only [plotRun, hs]
      have hno : leaves act = false := by
        cases act with
        | close i => rfl
        | make k a =>
          cases hq : leaves (.make k a) with
          | false => rfl
          | true =>
            exfalso
            simp only [leaves, Bool.and_eq_true, Bool.or_eq_true, decide_eq_true_eq, Option.isNone_iff_eq_none] at hq
            obtain ⟨⟨⟨hk, a1⟩, a2⟩, a3⟩ := hq
            simp only [plotStep, PlotterKind.binds, a1, a2, a3, Option.isNone_none, Bool.true_or, Bool.and_self, Bool.true_eq_false, if_false] at hs
            cases hs
      rw [List.countP_cons, hno, hrun]
      refine ih s L ⟨fun n hm => ?_, h.left, h.old, h.nodup⟩ (allClosed_tail s s act acts hone hall)
      rcases h.later n hm with h' | ⟨i, h1, h2⟩
      · exact Or.inl h'
      · refine Or.inr ⟨i, h1, ?_⟩
        rcases List.mem_cons.1 h2 with rfl | h2
        · simp only [plotStep, h1] at hs
          cases hs
        · exact h2
    | ok s' =>
      have hone : plotRun s [act] = s' := by simp only [plotRun, hs]
      have hrun : plotRun s (act :: acts) = plotRun s' acts := by simp only [plotRun, hs]
      have htail := allClosed_tail s s' act acts hone hall
      rw [hrun]
      cases act with
      | close i =>
        rw [List.countP_cons, show leaves (.close i) = false from rfl]
        have hs' : ∃ f, s.plotters[i]? = some f ∧ s' = closeFigure s f := by
          cases hp : s.plotters[i]? with
          | none => simp only [plotStep, hp] at hs; cases hs
          | some f => simp only [plotStep, hp] at hs; exact ⟨f, rfl, (Except.ok.inj hs).symm⟩
        obtain ⟨f, hf, rfl⟩ := hs'
        have hmem : ∀ x, x ∈ (closeFigure s f).opened ↔ x ∈ s.opened ∧ x ≠ f := by simp [closeFigure]
        refine ih _ L ⟨fun n hm => ?_, fun x hx => ?_, fun n hn => ?_, h.nodup.1, h.nodup.2.filter _⟩ htail
        · obtain ⟨m1, m2⟩ := (hmem _).1 hm
          rcases h.later n m1 with h' | ⟨j, h1, h2⟩
          · exact Or.inl h'
          · refine Or.inr ⟨j, h1, ?_⟩
            rcases List.mem_cons.1 h2 with h2 | h2
            · cases h2
              rw [hf] at h1
              exact absurd (Option.some.inj h1).symm m2
            · exact h2
        · obtain ⟨l1, l2, l3⟩ := h.left x hx
          refine ⟨(hmem _).2 ⟨l1, ?_⟩, l2, l3⟩
          rintro rfl
          exact l2 (List.mem_of_getElem? hf)
        · refine h.old n ?_
          rcases hn with hn | hn
          · exact Or.inl ((hmem _).1 hn).1
          · exact Or.inr hn
      | make k a =>
        have hclose : .close s.plotters.length ∈ acts := hall [] k a acts s' rfl hs
        have hlater : ∀ n, .made n ∈ s.opened → .made n ∈ L ∨ ∃ i : Nat, s.plotters[i]? = some (.made n) ∧ .close i ∈ acts := by
          intro n hm
          rcases h.later n hm with h' | ⟨i, h1, h2⟩
          · exact Or.inl h'
          · exact Or.inr ⟨i, h1, by simpa using h2⟩
        have hget : ∀ (f x : Figure) (i : Nat), s.plotters[i]? = some x → (s.plotters ++ [f])[i]? = some x := by
          intro f x i hi
          obtain ⟨hi', -⟩ := List.getElem?_eq_some_iff.1 hi
          rw [List.getElem?_append_left hi', hi]
        have hlast : ∀ f : Figure, (s.plotters ++ [f])[s.plotters.length]? = some f := by simp
        have hfresh : ∀ n, s.count ≤ n → .made n ∉ s.opened ∧ .made n ∉ s.plotters := by
          intro n hn
          exact ⟨fun hm => absurd (h.old n (Or.inl hm)) (by omega), fun hm => absurd (h.old n (Or.inr hm)) (by omega)⟩
        rcases make_effect s s' k a hs with ⟨hl, ho, hc, hp⟩ | ⟨hl, g, n, hg, hc, ho, hp⟩ | ⟨hl, ho, hc, hp⟩ | ⟨hl, f, hf, ho, hc, hp⟩
        · obtain ⟨c1, c2⟩ := hfresh s.count (le_refl _)
          obtain ⟨d1, d2⟩ := hfresh (s.count + 1) (by omega)
          have hL : Figure.made s.count ∉ L := fun hm => c1 (h.left _ hm).1
          have hopen : Open s' acts (L ++ [.made s.count]) := by
            refine ⟨?_, ?_, ?_, ?_, ?_⟩
            · intro m hm
              rw [ho] at hm
              rw [hp]
              simp only [List.mem_append, List.mem_cons, List.not_mem_nil, or_false] at hm
              rcases hm with hm | hm | hm
              · rcases hlater m hm with h' | ⟨i, h1, h2⟩
                · exact Or.inl (by simp [h'])
                · exact Or.inr ⟨i, hget _ _ _ h1, h2⟩
              · exact Or.inl (by simp [hm])
              · exact Or.inr ⟨_, by rw [hlast, hm], hclose⟩
            · intro x hx
              rw [ho, hp]
              rcases List.mem_append.1 hx with hx | hx
              · obtain ⟨l1, l2, l3⟩ := h.left x hx
                refine ⟨by simp [l1], ?_, l3⟩
                simp only [List.mem_append, List.mem_singleton, not_or]
                exact ⟨l2, fun he => d1 (he ▸ l1)⟩
              · obtain rfl := List.mem_singleton.1 hx
                refine ⟨by simp, ?_, _, rfl⟩
                simp only [List.mem_append, List.mem_singleton, not_or]
                exact ⟨c2, by simp⟩
            · intro m hm
              rw [ho, hp] at hm
              rw [hc]
              simp only [List.mem_append, List.mem_cons, List.not_mem_nil, or_false, Figure.made.injEq] at hm
              rcases hm with (hm | hm | hm) | (hm | hm)
              · have := h.old m (Or.inl hm); omega
              · omega
              · omega
              · have := h.old m (Or.inr hm); omega
              · omega
            · exact List.nodup_append.2 ⟨h.nodup.1, by simp, by rintro x hx y hy rfl; exact hL (List.mem_singleton.1 hy ▸ hx)⟩
            · rw [ho]
              refine List.nodup_append.2 ⟨h.nodup.2, by simp, ?_⟩
              rintro x hx y hy rfl
              simp only [List.mem_cons, List.not_mem_nil, or_false] at hy
              rcases hy with rfl | rfl
              · exact c1 hx
              · exact d1 hx
          obtain ⟨L', k1, k2⟩ := ih s' (L ++ [.made s.count]) hopen htail
          refine ⟨L', ?_, k2⟩
          rw [k1, List.countP_cons, hl]
          simp
          omega
        · rw [List.countP_cons, hl]
          have hn : s.count ≤ n := by rcases hg with ⟨-, hg⟩ | ⟨-, hg⟩ <;> omega
          obtain ⟨d1, d2⟩ := hfresh n hn
          refine ih s' L ⟨?_, ?_, ?_, h.nodup.1, ?_⟩ htail
          · intro m hm
            rw [ho] at hm
            rw [hp]
            rcases List.mem_append.1 hm with hm | hm
            · rcases hlater m (List.mem_filter.1 hm).1 with h' | ⟨i, h1, h2⟩
              · exact Or.inl h'
              · exact Or.inr ⟨i, hget _ _ _ h1, h2⟩
            · exact Or.inr ⟨_, by rw [hlast, List.mem_singleton.1 hm], hclose⟩
          · intro x hx
            obtain ⟨l1, l2, j, l3⟩ := h.left x hx
            rw [ho, hp]
            refine ⟨List.mem_append.2 (Or.inl (List.mem_filter.2 ⟨l1, ?_⟩)), ?_, j, l3⟩
            · refine decide_eq_true ?_
              rintro rfl
              rcases hg with ⟨hg | ⟨j', hg⟩, -⟩ | ⟨hg, -⟩
              · exact l2 hg
              · rw [l3] at hg; cases hg
              · exact (hfresh s.count (le_refl _)).1 (hg ▸ l1)
            · simp only [List.mem_append, List.mem_singleton, not_or]
              exact ⟨l2, fun he => d1 (he ▸ l1)⟩
          · intro m hm
            rw [ho, hp] at hm
            rw [hc]
            rcases hm with hm | hm
            · rcases List.mem_append.1 hm with hm | hm
              · have := h.old m (Or.inl (List.mem_filter.1 hm).1); omega
              · have := Figure.made.inj (List.mem_singleton.1 hm); omega
            · rcases List.mem_append.1 hm with hm | hm
              · have := h.old m (Or.inr hm); omega
              · have := Figure.made.inj (List.mem_singleton.1 hm); omega
          · rw [ho]
            refine List.nodup_append.2 ⟨h.nodup.2.filter _, by simp, ?_⟩
            rintro x hx y hy rfl
            exact d1 (List.mem_singleton.1 hy ▸ (List.mem_filter.1 hx).1)
        · rw [List.countP_cons, hl]
          obtain ⟨d1, d2⟩ := hfresh s.count (le_refl _)
          refine ih s' L ⟨?_, ?_, ?_, h.nodup.1, ?_⟩ htail
          · intro m hm
            rw [ho] at hm
            rw [hp]
            rcases List.mem_append.1 hm with hm | hm
            · rcases hlater m hm with h' | ⟨i, h1, h2⟩
              · exact Or.inl h'
              · exact Or.inr ⟨i, hget _ _ _ h1, h2⟩
            · exact Or.inr ⟨_, by rw [hlast, List.mem_singleton.1 hm], hclose⟩
          · intro x hx
            obtain ⟨l1, l2, l3⟩ := h.left x hx
            rw [ho, hp]
            refine ⟨List.mem_append.2 (Or.inl l1), ?_, l3⟩
            simp only [List.mem_append, List.mem_singleton, not_or]
            exact ⟨l2, fun he => d1 (he ▸ l1)⟩
          · intro m hm
            rw [ho, hp] at hm
            rw [hc]
            rcases hm with hm | hm
            · rcases List.mem_append.1 hm with hm | hm
              · have := h.old m (Or.inl hm); omega
              · have := Figure.made.inj (List.mem_singleton.1 hm); omega
            · rcases List.mem_append.1 hm with hm | hm
              · have := h.old m (Or.inr hm); omega
              · have := Figure.made.inj (List.mem_singleton.1 hm); omega
          · rw [ho]
            refine List.nodup_append.2 ⟨h.nodup.2, by simp, ?_⟩
            rintro x hx y hy rfl
            exact d1 (List.mem_singleton.1 hy ▸ hx)
        · rw [List.countP_cons, hl]
          refine ih s' L ⟨?_, ?_, ?_, h.nodup.1, by rw [ho]; exact h.nodup.2⟩ htail
          · intro m hm
            rw [ho] at hm
            rw [hp]
            rcases hlater m hm with h' | ⟨i, h1, h2⟩
            · exact Or.inl h'
            · exact Or.inr ⟨i, hget _ _ _ h1, h2⟩
          · intro x hx
            obtain ⟨l1, l2, j, l3⟩ := h.left x hx
            rw [ho, hp]
            refine ⟨l1, ?_, j, l3⟩
            simp only [List.mem_append, List.mem_singleton, not_or]
            refine ⟨l2, ?_⟩
            rintro rfl
            rcases hf with hf | ⟨j', hf⟩
            · exact l2 hf
            · rw [l3] at hf; cases hf
          · intro m hm
            rw [ho, hp] at hm
            rw [hc]
            rcases hm with hm | hm
            · exact h.old m (Or.inl hm)
            · rcases List.mem_append.1 hm with hm | hm
              · exact h.old m (Or.inr hm)
              · rcases hf with hf | ⟨j', hf⟩
                · exact h.old m (Or.inr (List.mem_singleton.1 hm ▸ hf))
                · rw [hf] at hm
                  simp at hm

/-- the figures of the plotters that are open -/
def madeOpen (s : Pyplot) : List Figure := s.opened.filter fun f => match f with | .made _ => true | .own _ => false

/-- C162, in general: in a program that closes every plotter it makes, one figure is left open by each `CameraTMWaveformPlotter`, `CameraPixelWaveformPlotter` and `SPECamera`, and none by any other. -/
theorem C162_left (s : Pyplot) (hs : s.plotters = []) (hm : madeOpen s = []) (hn : s.opened.Nodup) (acts : List PlotAct) (h : AllClosed s acts) :
    (madeOpen (plotRun s acts)).length = acts.countP leaves := by
  have hno : ∀ n, Figure.made n ∉ s.opened := by
    intro n hmem
    have : Figure.made n ∈ madeOpen s := List.mem_filter.2 ⟨hmem, rfl⟩
    rw [hm] at this
    simp at this
  obtain ⟨L, l1, l2, l3, l4, l5⟩ := open_run acts s [] ⟨fun n hn => absurd hn (hno n), fun f hf => by simp at hf, fun n hn => by
    rcases hn with hn | hn
    · exact absurd hn (hno n)
    · rw [hs] at hn
      simp at hn, List.nodup_nil, hn⟩ h
  rw [List.length_nil, Nat.zero_add] at l1
  rw [← l1]
  refine List.Perm.length_eq ((List.perm_ext_iff_of_nodup (l3.filter _) l2).2 fun f => ?_)
  cases f with
  | own k =>
    refine ⟨fun hf => ?_, fun hf => ?_⟩
    · have := (List.mem_filter.1 hf).2
      simp at this
    · obtain ⟨n, hn⟩ := l4 _ hf
      cases hn
  | made n =>
    rw [← l5 n]
    exact ⟨fun hf => (List.mem_filter.1 hf).1, fun hf => List.mem_filter.2 ⟨hf, rfl⟩⟩

/-- C162, what holds: with the other classes, a program that closes every plotter it makes leaves none of their figures open. -/
theorem C162_partial (s : Pyplot) (hs : s.plotters = []) (hm : madeOpen s = []) (hn : s.opened.Nodup) (acts : List PlotAct) (h : AllClosed s acts)
    (hk : ∀ k a, .make k a ∈ acts → k ≠ .modules ∧ k ≠ .pixels ∧ k ≠ .speCamera) : madeOpen (plotRun s acts) = [] := by
  refine List.length_eq_zero_iff.1 ?_
  rw [C162_left s hs hm hn acts h, List.countP_eq_zero]
  intro act hact
  cases act with
  | close i => simp [leaves]
  | make k a =>
    obtain ⟨h1, h2, h3⟩ := hk k a hact
    simp [leaves, h1, h2, h3]

/-- C162 is false as stated: the camera of the fit results is made and closed, and a figure is left open. -/
theorem C162_false : ∃ (s : Pyplot) (acts : List PlotAct), s.plotters = [] ∧ s.opened = [] ∧ AllClosed s acts ∧ (plotRun s acts).opened.length = 1 := by
  have hall : AllClosed freshSession [.make .speCamera ⟨none, none, none⟩, .close 0] := by
    intro pre k a post s' he _
    cases pre with
    | nil =>
      simp only [List.nil_append, List.cons.injEq] at he
      rw [← he.2]
      simp [plotRun, freshSession]
    | cons x pre =>
      cases pre with
      | nil => simp at he
      | cons y pre => simp at he
  refine ⟨freshSession, _, rfl, rfl, hall, ?_⟩
  have h := C162_left freshSession rfl rfl List.nodup_nil _ hall
  have hown : ∀ k, Figure.own k ∉ (plotRun freshSession [.make .speCamera ⟨none, none, none⟩, .close 0]).opened := by
    intro k hm
    obtain ⟨s', hs'⟩ : ∃ s', plotStep freshSession (.make .speCamera ⟨none, none, none⟩) = .ok s' := ⟨_, rfl⟩
    have e : plotRun freshSession [.make .speCamera ⟨none, none, none⟩, .close 0] = plotRun s' [.close 0] := by simp only [plotRun, hs']
    rw [e] at hm
    rcases make_effect _ _ _ _ hs' with ⟨-, ho, -, hp⟩ | ⟨hl, -⟩ | ⟨hl, -⟩ | ⟨hl, -⟩
    · have hc : plotStep s' (.close 0) = .ok (closeFigure s' (.made 1)) := by
        simp only [plotStep, hp]
        rfl
      simp only [plotRun, hc, closeFigure, ho, freshSession] at hm
      simp at hm
    · cases hl
    · cases hl
    · cases hl
  rw [madeOpen, List.filter_eq_self.2 ?_] at h
  · rw [h]
    rfl
  · intro f hf
    cases f with
    | own k => exact absurd hf (hown k)
    | made n => rfl

/-- Figures of the caller stay open unless their axes are given to a plotter. -/
theorem C162_callers (acts : List PlotAct) (j : Nat) (hno : ∀ k a, .make k a ∈ acts → a.ax ≠ some (.own j)) :
    ∀ s, Figure.own j ∉ s.plotters → (Figure.own j ∈ (plotRun s acts).opened ↔ Figure.own j ∈ s.opened) := by
  induction acts with
  | nil => exact fun s _ => Iff.rfl
  | cons act acts ih =>
    intro s hp
    have ih := ih fun k a h => hno k a (List.mem_cons_of_mem _ h)
    cases hs : plotStep s act with
    | error e =>
      rw [show plotRun s (act :: acts) = plotRun s acts by simp only [plotRun, hs]]
      exact ih s hp
    | ok s' =>
      rw [show plotRun s (act :: acts) = plotRun s' acts by simp only [plotRun, hs]]
      have key : Figure.own j ∉ s'.plotters ∧ (Figure.own j ∈ s'.opened ↔ Figure.own j ∈ s.opened) := by
        cases act with
        | close i =>
          cases hq : s.plotters[i]? with
          | none => simp only [plotStep, hq] at hs; cases hs
          | some f =>
            simp only [plotStep, hq] at hs
            obtain rfl := Except.ok.inj hs
            refine ⟨hp, ?_⟩
            have : Figure.own j ≠ f := fun he => hp (he ▸ List.mem_of_getElem? hq)
            simp [closeFigure, this]
        | make k a =>
          have hax := hno k a (by simp)
          obtain ⟨-, ax, hn, hx, -, ho, -, hpl⟩ := make_ok s s' k a hs
          have hne : ax ≠ some (.own j) := by
            intro he
            cases hq : a.ax with
            | none => rw [hn.2 hq] at he; cases he
            | some x =>
              have := hx x hq
              rw [he] at this
              cases x with
              | own i =>
                obtain rfl := Figure.own.inj (Option.some.inj this)
                exact hax hq
              | of i => exact hp (List.mem_of_getElem? this.symm)
          rw [ho, hpl]
          have hnone : ∀ (s : Pyplot) (B T : Bool), (plotterInit s none B T).1.opened = s.opened ++ [.made s.count] ∧ 
              (plotterInit s none B T).1.plotters = s.plotters ∧ (plotterInit s none B T).2 = .made s.count := by
            intro s B T
            unfold plotterInit
            exact ⟨rfl, rfl, rfl⟩
          have hsome : ∀ (s : Pyplot) (f : Figure) (B T : Bool), (plotterInit s (some f) B T).1.opened = s.opened ∧ 
              (plotterInit s (some f) B T).1.plotters = s.plotters ∧ (plotterInit s (some f) B T).2 = f := by
            intro s f B T
            unfold plotterInit
            exact ⟨rfl, rfl, rfl⟩
          cases ax with
          | none =>
            cases k <;> simp [constructPlotter, newFigure, closeFigure, setRc, (hnone _ _ _).1, (hnone _ _ _).2.1, (hnone _ _ _).2.2, (hsome _ _ _ _).1, (hsome _ _ _ _).2.1, hp]
          | some f =>
            have hf : Figure.own j ≠ f := fun he => hne (by rw [he])
            cases k <;> simp [constructPlotter, newFigure, closeFigure, setRc, (hsome _ _ _ _).1, (hsome _ _ _ _).2.1, (hsome _ _ _ _).2.2, hp, hf]
      rw [ih s' key.1, key.2]

attribute [local semireducible] plotterInit Dict.update

/-- A `SpectrumFitPlotter` given axes of the caller closes their figure and draws into another one. -/
theorem C162_spectrum_closes (s : Pyplot) (j : Nat) (sidebyside talk : Option Bool) : ∃ s' n, plotStep s (.make .spectrum ⟨some (.own j), sidebyside, talk⟩) = .ok s' ∧
    Figure.own j ∉ s'.opened ∧ s'.plotters = s.plotters ++ [.made n] := by
  have hb : PlotterKind.spectrum.binds ⟨some (.own j), sidebyside, talk⟩ = true := by simp [PlotterKind.binds, PlotterKind.accepts]
  refine ⟨_, s.count, by simp only [plotStep, hb, axesFigure, Bool.true_eq_false, if_false]; rfl, ?_, rfl⟩
  simp [constructPlotter, plotterInit, closeFigure, newFigure, setRc]

/-- C162: the calls refused are exactly those with an argument the class does not have: any for the charge resolution, the modules, the pixels and the SPE camera, and `sidebyside` for a waveform. -/
theorem C162_arguments (s : Pyplot) (k : PlotterKind) (a : PlotterArgs) : plotStep s (.make k a) = .error .typeError ↔
    (k ∈ [PlotterKind.resolution, .modules, .pixels, .speCamera] ∧ ¬ (a.ax = none ∧ a.sidebyside = none ∧ a.talk = none)) ∨ (k = .waveform ∧ a.sidebyside ≠ none) := by
  have hb : plotStep s (.make k a) = .error .typeError ↔ k.binds a = false := by
    unfold plotStep
    by_cases h : k.binds a = false
    · simp [h]
    · simp only [h]
      cases a.ax with
      | none => simp
      | some ax => cases hx : axesFigure s ax <;> simp [hx]
  rw [hb]
  obtain ⟨ax, b, t⟩ := a
  cases k <;> cases ax <;> cases b <;> cases t <;> simp [PlotterKind.binds, PlotterKind.accepts]

/-- a waveform cannot be made side by side, an image can -/
example : plotStep freshSession (.make .waveform ⟨none, some true, none⟩) = .error .typeError ∧ plotStep freshSession (.make .image ⟨none, some true, none⟩) ≠ .error .typeError := by
  refine ⟨(C162_arguments _ _ _).mpr (Or.inr ⟨rfl, by simp⟩), fun h => ?_⟩
  have := (C162_arguments _ _ _).mp h
  simp at this

/-- two images in the same figure and a fit: closed in another order, and no figure is left -/
example : madeOpen (plotRun freshSession [.make .image ⟨none, none, none⟩, .make .image ⟨some (.of 0), none, none⟩, .make .spectrum ⟨none, none, some true⟩, .close 2, .close 1, .close 0]) = [] := by
  refine C162_partial freshSession rfl rfl List.nodup_nil _ ?_ ?_
  · intro pre k a post s' he _
    rcases pre with _ | ⟨x, _ | ⟨y, _ | ⟨z, _ | ⟨w, _ | ⟨v, _ | ⟨u, pre⟩⟩⟩⟩⟩⟩
    · simp only [List.nil_append, List.cons.injEq] at he
      rw [← he.2]
      simp [plotRun, freshSession]
    · simp only [List.cons_append, List.nil_append, List.cons.injEq] at he
      obtain ⟨rfl, -, rfl⟩ := he
      have : (plotRun freshSession [.make .image ⟨none, none, none⟩]).plotters.length = 1 := rfl
      rw [this]
      simp
    · simp only [List.cons_append, List.nil_append, List.cons.injEq] at he
      obtain ⟨rfl, rfl, -, rfl⟩ := he
      have : (plotRun freshSession [.make .image ⟨none, none, none⟩, .make .image ⟨some (.of 0), none, none⟩]).plotters.length = 2 := rfl
      rw [this]
      simp
    all_goals simp at he
  · intro k a hm
    simp only [List.mem_cons, PlotAct.make.injEq, reduceCtorEq, List.not_mem_nil, or_false] at hm
    rcases hm with ⟨rfl, -⟩ | ⟨rfl, -⟩ | ⟨rfl, -⟩ <;> decide

end Verif.Props
