import Verif.Model.ExtractSpe
import Verif.Props.SpectrumFitter
import Verif.Lemmas.Dl1
import Mathlib.Data.List.Perm.Basic

/-! # C65, C83: fits of all pixels -/

namespace Verif.Props

open Verif.Py Verif.Model Verif.Spec Verif.Lemmas

/-- fitters with the same settings, whatever they fitted before -/
structure SameSettings (f g : Fitter) : Prop where
  n : g.coll.n = f.coll.n
  prep : g.coll.prep = f.coll.prep
  nBins : g.nBins = f.nBins
  range : g.range = f.range
  lookup : g.coll.lookupTyped.2 = f.coll.prep.lookup

theorem lookupTyped_fst (c : Collection) : c.lookupTyped.1.n = c.n ∧ c.lookupTyped.1.prep = c.prep ∧ c.lookupTyped.1.lookupTyped.2 = c.lookupTyped.2 := by
  unfold Collection.lookupTyped
  cases h : c.typed with
  | none => exact ⟨rfl, rfl, rfl⟩
  | some t => exact ⟨rfl, rfl, by simp only [h]⟩

theorem apply_same (engine : FitEngine) (f g : Fitter) (h : SameSettings f g) (hf : f.coll.lookupTyped.2 = f.coll.prep.lookup) (qs : List (List ℚ)) :
    (g.apply engine.minimise qs).2 = (f.apply engine.minimise qs).2 ∧ SameSettings f (g.apply engine.minimise qs).1 ∧
    ∀ r, (f.apply engine.minimise qs).2 = .ok r → readFit engine (g.apply engine.minimise qs).1 r = readFit engine (f.apply engine.minimise qs).1 r := by
  obtain ⟨h1, h2, h3, h4, h5⟩ := h
  obtain ⟨a1, a2, a3⟩ := lookupTyped_fst g.coll
  obtain ⟨b1, b2, b3⟩ := lookupTyped_fst f.coll
  unfold Fitter.apply
  rw [h1, h3, h4]
  by_cases hl : qs.length ≠ f.coll.n
  · rw [if_pos hl, if_pos hl]
    exact ⟨rfl, ⟨h1, h2, h3, h4, h5⟩, fun r hr => by cases hr⟩
  · rw [if_neg hl, if_neg hl]
    by_cases hr : 0 < f.coll.n ∧ ¬ (0 < f.nBins ∧ f.range.1 ≤ f.range.2)
    · rw [if_pos hr, if_pos hr]
      exact ⟨rfl, ⟨h1, h2, rfl, rfl, h5⟩, fun r hr => by cases hr⟩
    · rw [if_neg hr, if_neg hr]
      simp only [h2, h5, hf]
      cases engine.minimise ⟨f.coll.prep.kwargs, f.coll.prep.names, midpoints (histEdges f.nBins (outerEdges f.range)),
        qs.map (histCounts f.nBins (outerEdges f.range)), f.coll.prep.lookup⟩ with
      | error e => exact ⟨rfl, ⟨a1.trans h1, a2.trans h2, rfl, rfl, a3.trans h5⟩, fun r hr => by cases hr⟩
      | ok values =>
        refine ⟨rfl, ⟨a1.trans h1, a2.trans h2, rfl, rfl, a3.trans h5⟩, ?_⟩
        intro r hr
        simp only [readFit, Fitter.curve, a1, b1, h1, h2, h3, h4, h5, hf, a3, b3]

theorem applyPixel_same (engine : FitEngine) (f g : Fitter) (h : SameSettings f g) (hf : f.coll.lookupTyped.2 = f.coll.prep.lookup)
    (charges : List ChargeArray) (pixel : Nat) :
    (applyPixel engine g charges pixel).2 = (applyPixel engine f charges pixel).2 ∧ SameSettings f (applyPixel engine g charges pixel).1 := by
  unfold applyPixel
  cases charges.mapM (·.pixel pixel) with
  | error e => exact ⟨rfl, h⟩
  | ok qs =>
    simp only
    obtain ⟨h1, h2, h3⟩ := apply_same engine f g h hf qs
    revert h1 h2 h3
    rcases f.apply engine.minimise qs with ⟨f', rf⟩
    rcases g.apply engine.minimise qs with ⟨g', rg⟩
    intro h1 h2 h3
    simp only at h1 h2 h3
    subst h1
    cases rg with
    | error e => exact ⟨rfl, h2⟩
    | ok r => exact ⟨h3 r rfl, h2⟩

/-- the result for a pixel does not depend on the pixels the same worker fitted before -/
theorem C65_history (engine : FitEngine) (f : Fitter) (hf : f.coll.lookupTyped.2 = f.coll.prep.lookup) (charges : List ChargeArray) (before : List Nat)
    (pixel : Nat) :
    (applyPixel engine (before.foldl (fun g p => (applyPixel engine g charges p).1) f) charges pixel).2 = (applyPixel engine f charges pixel).2 := by
  have key : ∀ (before : List Nat) (g : Fitter), SameSettings f g → SameSettings f (before.foldl (fun g p => (applyPixel engine g charges p).1) g) := by
    intro before
    induction before with
    | nil => exact fun g h => h
    | cons p ps ih => exact fun g h => ih _ (applyPixel_same engine f g h hf charges p).2
  exact (applyPixel_same engine f _ (key before f ⟨rfl, rfl, rfl, rfl, hf⟩) hf charges pixel).1

/-- a camera with fewer pixels than asked for raises `IndexError` for the missing ones, and so does the whole run -/
theorem C65_missing (engine : FitEngine) (f : Fitter) (charges : List ChargeArray) (pixel : Nat) (h : ∃ a ∈ charges, a.nPixels ≤ pixel) :
    (applyPixel engine f charges pixel).2 = .error .indexError ∧ ∀ nPixels, pixel < nPixels → ∃ e, processPixels engine f charges nPixels = .error e := by
  have h1 : ∀ f, (applyPixel engine f charges pixel).2 = .error .indexError := by
    intro f
    have : charges.mapM (·.pixel pixel) = .error .indexError := by
      obtain ⟨a, ha, hp⟩ := h
      induction charges with
      | nil => cases ha
      | cons b bs ih =>
        rw [List.mapM_cons]
        rcases List.mem_cons.1 ha with rfl | ha
        · unfold ChargeArray.pixel
          rw [if_neg (by omega)]
          rfl
        · rw [ih ha]
          unfold ChargeArray.pixel
          split <;> rfl
    unfold applyPixel
    rw [this]
  refine ⟨h1 f, fun n hn => ?_⟩
  have h2 : ∀ (pixels : List Nat) (f : Fitter), pixel ∈ pixels → ∃ e, worker engine charges f pixels = .error e := by
    intro pixels
    induction pixels with
    | nil => intro f h; cases h
    | cons p ps ih =>
      intro f hp
      unfold worker
      rcases he : applyPixel engine f charges p with ⟨g, r⟩
      cases r with
      | error e => exact ⟨e, rfl⟩
      | ok r =>
        rcases List.mem_cons.1 hp with rfl | hp
        · have := h1 f
          rw [he] at this
          cases this
        · obtain ⟨e, hw⟩ := ih g hp
          exact ⟨e, by simp only [hw]⟩
  obtain ⟨e, hw⟩ := h2 (List.range n) f (List.mem_range.2 hn)
  exact ⟨e, by unfold processPixels; rw [hw]⟩

theorem worker_spec (engine : FitEngine) (f : Fitter) (hf : f.coll.lookupTyped.2 = f.coll.prep.lookup) (charges : List ChargeArray) (pixels : List Nat) :
    ∀ g, SameSettings f g → (∀ fits, worker engine charges g pixels = .ok fits ↔
      pixels.map (fun p => (p, (applyPixel engine f charges p).2)) = fits.map fun x => (x.1, .ok x.2)) := by
  induction pixels with
  | nil =>
    intro g _ fits
    simp only [worker, Except.ok.injEq, List.map_nil]
    constructor
    · intro h; rw [← h]; rfl
    · intro h; exact (List.map_eq_nil_iff.1 h.symm).symm
  | cons p ps ih =>
    intro g h fits
    obtain ⟨h1, h2⟩ := applyPixel_same engine f g h hf charges p
    rw [worker, List.map_cons, ← h1]
    revert h1 h2
    rcases applyPixel engine g charges p with ⟨g', rg⟩
    intro _ h2
    cases rg with
    | error e =>
      simp only [reduceCtorEq, false_iff]
      cases fits with
      | nil => simp
      | cons x fits => simp
    | ok r =>
      have ih := ih g' h2
      simp only
      cases hw : worker engine charges g' ps with
      | error e =>
        simp only [reduceCtorEq, false_iff]
        cases fits with
        | nil => simp
        | cons x fits =>
          intro hc
          rw [List.map_cons, List.cons.injEq] at hc
          have := (ih fits).2 hc.2
          rw [hw] at this
          cases this
      | ok rest =>
        simp only [Except.ok.injEq]
        have e := (ih rest).1 hw
        constructor
        · intro h; rw [← h, List.map_cons, e]
        · cases fits with
          | nil => simp
          | cons x fits =>
            intro hc
            rw [List.map_cons, List.cons.injEq] at hc
            have := (ih fits).2 hc.2
            rw [hw] at this
            injection this with this
            obtain ⟨hc1, -⟩ := hc
            simp only [Prod.mk.injEq, Except.ok.injEq] at hc1
            rw [this, hc1.1, hc1.2]

def valuesEv : SpeEvent → Option (Nat × Dict String ℚ)
  | .values p d => some (p, d)
  | _ => none

def errorsEv : SpeEvent → Option (Nat × Dict String ℚ)
  | .errors p d => some (p, d)
  | _ => none

def arraysEv : SpeEvent → Option (Nat × PixelArrays)
  | .arrays p d => some (p, d)
  | _ => none

theorem foldl_step (es : List SpeEvent) (s : SpeStore) :
    (es.foldl SpeStore.step s).values = Dict.update s.values (es.filterMap valuesEv) ∧
    (es.foldl SpeStore.step s).errors = Dict.update s.errors (es.filterMap errorsEv) ∧
    (es.foldl SpeStore.step s).arrays = Dict.update s.arrays (es.filterMap arraysEv) := by
  induction es generalizing s with
  | nil => exact ⟨rfl, rfl, rfl⟩
  | cons e es ih =>
    obtain ⟨h1, h2, h3⟩ := ih (s.step e)
    rw [List.foldl_cons, h1, h2, h3]
    cases e <;> exact ⟨rfl, rfl, rfl⟩

theorem events_filterMap (fits : List (Nat × PixelFit)) :
    (fits.flatMap pixelEvents).filterMap valuesEv = fits.map (fun x => (x.1, x.2.values)) ∧
    (fits.flatMap pixelEvents).filterMap errorsEv = fits.map (fun x => (x.1, x.2.errors)) ∧
    (fits.flatMap pixelEvents).filterMap arraysEv = fits.map (fun x => (x.1, x.2.arrays)) := by
  induction fits with
  | nil => exact ⟨rfl, rfl, rfl⟩
  | cons x fits ih =>
    obtain ⟨h1, h2, h3⟩ := ih
    simp only [List.flatMap_cons, List.filterMap_append, h1, h2, h3, List.map_cons]
    exact ⟨rfl, rfl, rfl⟩

theorem rowOf_eq {α : Type} (t : Dict Nat α) (pixel : Nat) : rowOf (tableOf t) pixel = t.get? pixel := by
  unfold rowOf tableOf
  induction t with
  | nil => rfl
  | cons x t ih =>
    obtain ⟨a, b⟩ := x
    rw [List.find?_cons, Dict.get?_cons]
    by_cases h : a = pixel
    · simp [h]
    · simp only [h, decide_false, if_false]
      exact ih

/-- entries written once each, in any order, are found under their key, and nothing else is -/
theorem update_perm {α β : Type} (fits : List (Nat × α)) (g : α → β) (l : List (Nat × β)) (hp : l.Perm (fits.map fun x => (x.1, g x.2)))
    (hn : (fits.map (·.1)).Nodup) (pixel : Nat) (v : β) :
    rowOf (tableOf (Dict.update [] l)) pixel = some v ↔ ∃ r, (pixel, r) ∈ fits ∧ g r = v := by
  have hk : (Dict.keys l).Nodup := by
    unfold Dict.keys
    have := hp.map Prod.fst
    rw [List.map_map] at this
    exact (this.nodup_iff).2 hn
  rw [rowOf_eq, Dict.get?_update _ _ _ hk]
  have : (Dict.get? l pixel).or (Dict.get? ([] : Dict Nat β) pixel) = Dict.get? l pixel := by
    cases Dict.get? l pixel <;> rfl
  rw [this]
  constructor
  · intro h
    have := hp.mem_iff.1 (Dict.mem_of_get? h)
    obtain ⟨x, hx, he⟩ := List.mem_map.1 this
    simp only [Prod.mk.injEq] at he
    exact ⟨x.2, by rw [← he.1]; exact hx, he.2⟩
  · rintro ⟨r, hr, rfl⟩
    exact Dict.get?_of_mem_nodup hk (hp.mem_iff.2 (List.mem_map.2 ⟨(pixel, r), hr, rfl⟩))

/-- Whatever the distribution of the pixels over the workers and the order in which their entries arrive, the rows labelled by a pixel are the result for
that pixel on its own, there is a row for every pixel and no other, and they are the rows of the sequential run.
Missing from the full claim: the rows need not be in pixel order (`C65_false`); they are for the sequential run (`C65_sequential`). -/
theorem C65_partial (engine : FitEngine) (f : Fitter) (hf : f.coll.lookupTyped.2 = f.coll.prep.lookup) (charges : List ChargeArray) (nPixels : Nat)
    (chunks : List (List Nat)) (hc : chunks.flatten.Perm (List.range nPixels)) (fits : List (List (Nat × PixelFit)))
    (hw : chunks.map (worker engine charges f) = fits.map .ok) (events : List SpeEvent) (he : events.Perm (fits.flatten.flatMap pixelEvents)) :
    let s := events.foldl SpeStore.step {}
    (∀ pixel < nPixels, ∃ r, (applyPixel engine f charges pixel).2 = .ok r ∧ rowOf (tableOf s.values) pixel = some r.values ∧
      rowOf (tableOf s.errors) pixel = some r.errors ∧ rowOf (tableOf s.arrays) pixel = some r.arrays) ∧
    (∀ pixel, nPixels ≤ pixel → rowOf (tableOf s.values) pixel = none ∧ rowOf (tableOf s.errors) pixel = none ∧ rowOf (tableOf s.arrays) pixel = none) ∧
    ∃ s', processPixels engine f charges nPixels = .ok s' ∧ ∀ pixel, rowOf (tableOf s'.values) pixel = rowOf (tableOf s.values) pixel ∧
      rowOf (tableOf s'.errors) pixel = rowOf (tableOf s.errors) pixel ∧ rowOf (tableOf s'.arrays) pixel = rowOf (tableOf s.arrays) pixel := by
  intro s
  have hself : SameSettings f f := ⟨rfl, rfl, rfl, rfl, hf⟩
  -- all results, in the order of the chunks
  have hall : chunks.flatten.map (fun p => (p, (applyPixel engine f charges p).2)) = fits.flatten.map fun x => (x.1, .ok x.2) := by
    clear he s hc
    induction chunks generalizing fits with
    | nil =>
      have : fits = [] := by simpa using hw.symm
      rw [this]; rfl
    | cons c cs ih =>
      cases fits with
      | nil => simp at hw
      | cons x xs =>
        rw [List.map_cons, List.map_cons, List.cons.injEq] at hw
        rw [List.flatten_cons, List.flatten_cons, List.map_append, List.map_append, ih xs hw.2,
          ((worker_spec engine f hf charges c) f hself x).1 hw.1]
  have hfst : fits.flatten.map (·.1) = chunks.flatten := by
    have := congrArg (List.map Prod.fst) hall
    rw [List.map_map, List.map_map] at this
    rw [← List.map_id chunks.flatten]
    exact this.symm
  have hn : (fits.flatten.map (·.1)).Nodup := by rw [hfst]; exact hc.nodup_iff.2 List.nodup_range
  have hres : ∀ p r, (p, r) ∈ fits.flatten ↔ p < nPixels ∧ (applyPixel engine f charges p).2 = .ok r := by
    intro p r
    constructor
    · intro h
      have h1 : (p, (Except.ok r : Except Err PixelFit)) ∈ fits.flatten.map fun x => (x.1, Except.ok x.2) := List.mem_map.2 ⟨(p, r), h, rfl⟩
      rw [← hall] at h1
      obtain ⟨q, hq, hq'⟩ := List.mem_map.1 h1
      simp only [Prod.mk.injEq] at hq'
      obtain ⟨rfl, hq'⟩ := hq'
      exact ⟨List.mem_range.1 (hc.mem_iff.1 hq), hq'⟩
    · rintro ⟨hp, hr⟩
      have h1 : (p, (Except.ok r : Except Err PixelFit)) ∈ chunks.flatten.map fun p => (p, (applyPixel engine f charges p).2) :=
        List.mem_map.2 ⟨p, hc.mem_iff.2 (List.mem_range.2 hp), by rw [hr]⟩
      rw [hall] at h1
      obtain ⟨x, hx, hx'⟩ := List.mem_map.1 h1
      simp only [Prod.mk.injEq, Except.ok.injEq] at hx'
      rw [← hx'.1, ← hx'.2]
      exact hx
  have hok : ∀ p < nPixels, ∃ r, (applyPixel engine f charges p).2 = .ok r := by
    intro p hp
    have : p ∈ fits.flatten.map (·.1) := by rw [hfst]; exact hc.mem_iff.2 (List.mem_range.2 hp)
    obtain ⟨x, hx, rfl⟩ := List.mem_map.1 this
    exact ⟨x.2, ((hres x.1 x.2).1 hx).2⟩
  have rows : ∀ (fs : List (Nat × PixelFit)) (es : List SpeEvent), es.Perm (fs.flatMap pixelEvents) → (fs.map (·.1)).Nodup →
      ∀ pixel, (∀ v, rowOf (tableOf (es.foldl SpeStore.step {}).values) pixel = some v ↔ ∃ r, (pixel, r) ∈ fs ∧ r.values = v) ∧
        (∀ v, rowOf (tableOf (es.foldl SpeStore.step {}).errors) pixel = some v ↔ ∃ r, (pixel, r) ∈ fs ∧ r.errors = v) ∧
        (∀ v, rowOf (tableOf (es.foldl SpeStore.step {}).arrays) pixel = some v ↔ ∃ r, (pixel, r) ∈ fs ∧ r.arrays = v) := by
    intro fs es hes hns pixel
    obtain ⟨e1, e2, e3⟩ := foldl_step es {}
    obtain ⟨g1, g2, g3⟩ := events_filterMap fs
    rw [e1, e2, e3]
    exact ⟨fun v => update_perm fs (·.values) _ (g1 ▸ hes.filterMap valuesEv) hns pixel v,
      fun v => update_perm fs (·.errors) _ (g2 ▸ hes.filterMap errorsEv) hns pixel v,
      fun v => update_perm fs (·.arrays) _ (g3 ▸ hes.filterMap arraysEv) hns pixel v⟩
  have hrows := rows fits.flatten events he hn
  refine ⟨?_, ?_, ?_⟩
  · intro pixel hp
    obtain ⟨r, hr⟩ := hok pixel hp
    have hm := (hres pixel r).2 ⟨hp, hr⟩
    exact ⟨r, hr, ((hrows pixel).1 _).2 ⟨r, hm, rfl⟩, ((hrows pixel).2.1 _).2 ⟨r, hm, rfl⟩, ((hrows pixel).2.2 _).2 ⟨r, hm, rfl⟩⟩
  · intro pixel hp
    refine ⟨?_, ?_, ?_⟩ <;> refine Option.eq_none_iff_forall_ne_some.2 fun v hv => ?_
    · obtain ⟨r, hr, -⟩ := ((hrows pixel).1 v).1 hv
      exact absurd ((hres pixel r).1 hr).1 (by omega)
    · obtain ⟨r, hr, -⟩ := ((hrows pixel).2.1 v).1 hv
      exact absurd ((hres pixel r).1 hr).1 (by omega)
    · obtain ⟨r, hr, -⟩ := ((hrows pixel).2.2 v).1 hv
      exact absurd ((hres pixel r).1 hr).1 (by omega)
  · choose res hres' using hok
    let seq : List (Nat × PixelFit) := (List.range nPixels).attach.map fun p => (p.1, res p.1 (List.mem_range.1 p.2))
    have hseq : (List.range nPixels).map (fun p => (p, (applyPixel engine f charges p).2)) = seq.map fun x => (x.1, .ok x.2) := by
      simp only [seq, List.map_map]
      conv => lhs; rw [← List.attach_map_subtype_val (List.range nPixels), List.map_map]
      refine List.map_congr_left fun p _ => ?_
      simp only [Function.comp, Prod.mk.injEq, true_and]
      exact hres' p.1 _
    have hfst' : seq.map (·.1) = List.range nPixels := by
      simp only [seq, List.map_map]
      exact List.attach_map_subtype_val (List.range nPixels)
    have hwork := ((worker_spec engine f hf charges (List.range nPixels)) f hself seq).2 hseq
    refine ⟨(seq.flatMap pixelEvents).foldl SpeStore.step {}, by unfold processPixels; rw [hwork], ?_⟩
    have hrows' := rows seq (seq.flatMap pixelEvents) (List.Perm.refl _) (by rw [hfst']; exact List.nodup_range)
    have hmem : ∀ p r, (p, r) ∈ seq ↔ (p, r) ∈ fits.flatten := by
      intro p r
      rw [hres]
      constructor
      · intro h
        obtain ⟨q, -, hq⟩ := List.mem_map.1 h
        simp only [Prod.mk.injEq] at hq
        obtain ⟨rfl, rfl⟩ := hq
        exact ⟨List.mem_range.1 q.2, hres' q.1 _⟩
      · rintro ⟨hp, hr⟩
        refine List.mem_map.2 ⟨⟨p, List.mem_range.2 hp⟩, List.mem_attach _ _, ?_⟩
        simp only [Prod.mk.injEq, true_and]
        have := hres' p hp
        rw [hr] at this
        injection this with this
        exact this.symm
    have ext : ∀ {γ : Type} (a b : Option γ), (∀ v, a = some v ↔ b = some v) → a = b := fun a b h => Option.ext h
    intro pixel
    refine ⟨ext _ _ fun v => ?_, ext _ _ fun v => ?_, ext _ _ fun v => ?_⟩
    · rw [(hrows' pixel).1, (hrows pixel).1]; simp only [hmem]
    · rw [(hrows' pixel).2.1, (hrows pixel).2.1]; simp only [hmem]
    · rw [(hrows' pixel).2.2, (hrows pixel).2.2]; simp only [hmem]

/-- fresh keys are appended -/
theorem update_fresh {β : Type} (l a : Dict Nat β) (hn : (Dict.keys a ++ Dict.keys l).Nodup) : Dict.update a l = a ++ l := by
  induction l generalizing a with
  | nil => simp
  | cons x l ih =>
    obtain ⟨k, v⟩ := x
    rw [Dict.update_cons]
    have hk : k ∉ Dict.keys a := by
      intro hk
      rw [List.nodup_append] at hn
      exact hn.2.2 k hk k (by simp [Dict.keys]) rfl
    have hset : ∀ a : Dict Nat β, k ∉ Dict.keys a → Dict.set a k v = a ++ [(k, v)] := by
      intro a
      induction a with
      | nil => intro _; rfl
      | cons y a ih2 =>
        intro hk
        simp only [Dict.keys, List.map_cons, List.mem_cons, not_or] at hk
        rw [Dict.set, if_neg (Ne.symm hk.1)]
        rw [ih2 hk.2]
        rfl
    rw [hset a hk, ih]
    · simp
    · simpa [Dict.keys] using hn

/-- the shared dictionaries after the pixels were handled one after the other -/
theorem sequential_tables (engine : FitEngine) (f : Fitter) (hf : f.coll.lookupTyped.2 = f.coll.prep.lookup) (charges : List ChargeArray) (nPixels : Nat)
    (s : SpeStore) (h : processPixels engine f charges nPixels = .ok s) :
    ∃ fits : List (Nat × PixelFit), s.values = fits.map (fun x => (x.1, x.2.values)) ∧ s.errors = fits.map (fun x => (x.1, x.2.errors)) ∧
      s.arrays = fits.map (fun x => (x.1, x.2.arrays)) ∧ fits.map (·.1) = List.range nPixels ∧
      ∀ pixel < nPixels, ∃ r, (applyPixel engine f charges pixel).2 = .ok r ∧ fits[pixel]? = some (pixel, r) := by
  unfold processPixels at h
  cases hw : worker engine charges f (List.range nPixels) with
  | error e => rw [hw] at h; cases h
  | ok fits =>
    rw [hw] at h
    injection h with h
    have hall := ((worker_spec engine f hf charges (List.range nPixels)) f ⟨rfl, rfl, rfl, rfl, hf⟩ fits).1 hw
    have hfst : fits.map (·.1) = List.range nPixels := by
      have := congrArg (List.map Prod.fst) hall
      rw [List.map_map, List.map_map] at this
      rw [← List.map_id (List.range nPixels)]
      exact this.symm
    obtain ⟨e1, e2, e3⟩ := foldl_step (fits.flatMap pixelEvents) {}
    obtain ⟨g1, g2, g3⟩ := events_filterMap fits
    rw [h, g1] at e1
    rw [h, g2] at e2
    rw [h, g3] at e3
    have hnod : ∀ {β : Type} (g : PixelFit → β), Dict.update [] (fits.map fun x => (x.1, g x.2)) = fits.map fun x => (x.1, g x.2) := by
      intro β g
      rw [update_fresh]
      · rfl
      · simp only [Dict.keys, List.map_nil, List.nil_append, List.map_map]
        have : fits.map (Prod.fst ∘ fun x => (x.1, g x.2)) = List.range nPixels := hfst
        rw [this]
        exact List.nodup_range
    refine ⟨fits, by rw [e1, hnod], by rw [e2, hnod], by rw [e3, hnod], hfst, ?_⟩
    intro pixel hp
    have hx := congrArg (fun l => l[pixel]?) hall
    simp only [List.getElem?_map, List.getElem?_range hp, Option.map_some] at hx
    cases hf' : fits[pixel]? with
    | none => rw [hf'] at hx; cases hx
    | some x =>
      rw [hf'] at hx
      simp only [Option.map_some, Option.some.injEq, Prod.mk.injEq] at hx
      refine ⟨x.2, hx.2, ?_⟩
      rw [hx.1]

/-- without worker processes the rows are in pixel order, so that the camera image shows each pixel's value at that pixel -/
theorem C65_sequential (engine : FitEngine) (f : Fitter) (hf : f.coll.lookupTyped.2 = f.coll.prep.lookup) (charges : List ChargeArray) (nPixels : Nat)
    (s : SpeStore) (h : processPixels engine f charges nPixels = .ok s) (col : String) :
    (tableOf s.values).map (·.1) = List.range nPixels ∧ (tableOf s.errors).map (·.1) = List.range nPixels ∧
    (tableOf s.arrays).map (·.1) = List.range nPixels ∧
    ∀ pixel < nPixels, ∃ r, (applyPixel engine f charges pixel).2 = .ok r ∧ (imageOf (tableOf s.values) col)[pixel]? = some (r.values.get? col) := by
  obtain ⟨fits, h1, h2, h3, h4, h5⟩ := sequential_tables engine f hf charges nPixels s h
  rw [h1, h2, h3]
  unfold tableOf
  simp only [List.map_map]
  refine ⟨h4, h4, h4, ?_⟩
  intro pixel hp
  obtain ⟨r, hr, hp⟩ := h5 pixel hp
  exact ⟨r, hr, by simp [imageOf, hp]⟩

/-- a fit that returns the content of the first bin -/
def firstBin : FitEngine where
  minimise r := .ok [("a", ((r.histY.head?.bind (·.head?)).getD 0))]
  hesse _ := [("a", 0)]
  spectra x l _ := l.map fun _ => x.map fun _ => 1

/-- two pixels, one event with charges 0 and 3 -/
def twoPixels : List ChargeArray := [⟨2, [[0, 3]]⟩]

/-- a fitter of two bins from 0 to 4 -/
def smallFitter : Fitter := Fitter.new 1 [⟨"a", 1, (0, 5), false, false⟩] 2 (0, 4)

/-- the full claim about the rows: they are in pixel order whatever the order in which the workers' entries arrive -/
def RowsInOrder : Prop :=
  ∀ (engine : FitEngine) (f : Fitter) (charges : List ChargeArray) (nPixels : Nat) (chunks : List (List Nat)) (fits : List (List (Nat × PixelFit)))
    (events : List SpeEvent), f.coll.lookupTyped.2 = f.coll.prep.lookup → chunks.flatten.Perm (List.range nPixels) →
    chunks.map (worker engine charges f) = fits.map .ok → events.Perm (fits.flatten.flatMap pixelEvents) →
    ∀ col, ∀ pixel < nPixels, ∃ r, (applyPixel engine f charges pixel).2 = .ok r ∧
      (imageOf (tableOf (events.foldl SpeStore.step {}).values) col)[pixel]? = some (r.values.get? col)

/-- the claim is false: with two workers of one pixel each, the second being faster, the camera image shows the pixels exchanged -/
theorem C65_false : ¬ RowsInOrder := by
  intro h
  have ok0 : ∃ a, worker firstBin twoPixels smallFitter [0] = .ok [(0, a)] ∧ a.values = [("a", 1)] ∧ (applyPixel firstBin smallFitter twoPixels 0).2 = .ok a := by
    refine ⟨_, rfl, ?_, rfl⟩
    decide +kernel
  have ok1 : ∃ b, worker firstBin twoPixels smallFitter [1] = .ok [(1, b)] ∧ b.values = [("a", 0)] := by
    refine ⟨_, rfl, ?_⟩
    decide +kernel
  obtain ⟨a, ha, va, ra⟩ := ok0
  obtain ⟨b, hb, vb⟩ := ok1
  obtain ⟨r, hr, hi⟩ := h firstBin smallFitter twoPixels 2 [[0], [1]] [[(0, a)], [(1, b)]] (pixelEvents (1, b) ++ pixelEvents (0, a)) rfl (by decide)
    (by simp [ha, hb]) (by simpa using List.perm_append_comm) "a" 0 (by decide)
  rw [ra] at hr
  injection hr with hr
  subst hr
  have hv : (imageOf (tableOf ((pixelEvents (1, b) ++ pixelEvents (0, a)).foldl SpeStore.step {}).values) "a")[0]? = some (b.values.get? "a") := rfl
  rw [hv, va, vb] at hi
  revert hi
  decide +kernel

/-- the pixels in the order in which their fitted values reached the shared dictionary -/
def arrivalOrder (events : List SpeEvent) : List Nat := events.filterMap fun e => match e with | .values p _ => some p | _ => none

/-- **C65, exactly**: place `k` of the camera image shows the value of the pixel whose values arrived as number `k`. So if the values of the pixels differ,
the image shows every pixel at its place if and only if the values arrived in pixel order. -/
theorem C65_exactly_partial (engine : FitEngine) (f : Fitter) (hf : f.coll.lookupTyped.2 = f.coll.prep.lookup) (charges : List ChargeArray) (nPixels : Nat)
    (chunks : List (List Nat)) (hc : chunks.flatten.Perm (List.range nPixels)) (fits : List (List (Nat × PixelFit)))
    (hw : chunks.map (worker engine charges f) = fits.map .ok) (events : List SpeEvent) (he : events.Perm (fits.flatten.flatMap pixelEvents)) (col : String) :
    let image := imageOf (tableOf (events.foldl SpeStore.step {}).values) col
    (arrivalOrder events).Perm (List.range nPixels) ∧ image.length = nPixels ∧
    (∀ k p : Nat, (arrivalOrder events)[k]? = some p → ∃ r, (applyPixel engine f charges p).2 = .ok r ∧ image[k]? = some (r.values.get? col)) ∧
    ((∀ p q r r', p < nPixels → q < nPixels → (applyPixel engine f charges p).2 = .ok r → (applyPixel engine f charges q).2 = .ok r' →
        r.values.get? col = r'.values.get? col → p = q) →
      ((∀ p < nPixels, ∃ r, (applyPixel engine f charges p).2 = .ok r ∧ image[p]? = some (r.values.get? col)) ↔
        arrivalOrder events = List.range nPixels)) := by
  intro image
  obtain ⟨hrow, -, -⟩ := C65_partial engine f hf charges nPixels chunks hc fits hw events he
  have hall : chunks.flatten.map (fun p => (p, (applyPixel engine f charges p).2)) = fits.flatten.map fun x => (x.1, .ok x.2) := by
    clear he hc hrow image
    induction chunks generalizing fits with
    | nil =>
      have : fits = [] := by simpa using hw.symm
      rw [this]; rfl
    | cons c cs ih =>
      cases fits with
      | nil => simp at hw
      | cons x xs =>
        rw [List.map_cons, List.map_cons, List.cons.injEq] at hw
        rw [List.flatten_cons, List.flatten_cons, List.map_append, List.map_append, ih xs hw.2,
          ((worker_spec engine f hf charges c) f ⟨rfl, rfl, rfl, rfl, hf⟩ x).1 hw.1]
  have hfst : fits.flatten.map (·.1) = chunks.flatten := by
    have := congrArg (List.map Prod.fst) hall
    rw [List.map_map, List.map_map] at this
    rw [← List.map_id chunks.flatten]
    exact this.symm
  have horder : ∀ es : List SpeEvent, arrivalOrder es = (es.filterMap valuesEv).map (·.1) := by
    intro es
    unfold arrivalOrder
    induction es with
    | nil => rfl
    | cons e es ih => cases e <;> rw [List.filterMap_cons, List.filterMap_cons] <;> simp [valuesEv, ih]
  have hperm : (arrivalOrder events).Perm (List.range nPixels) := by
    have h1 := (he.filterMap valuesEv).map Prod.fst
    rw [(events_filterMap fits.flatten).1, List.map_map] at h1
    rw [horder]
    refine h1.trans ?_
    have : fits.flatten.map (Prod.fst ∘ fun x => (x.1, x.2.values)) = chunks.flatten := hfst
    rw [this]
    exact hc
  have hnd : (Dict.keys (events.filterMap valuesEv)).Nodup := by
    have := hperm.nodup_iff.2 List.nodup_range
    rw [horder] at this
    exact this
  have htable : (events.foldl SpeStore.step {}).values = events.filterMap valuesEv := by
    rw [(foldl_step events {}).1, update_fresh _ _ (by simpa [Dict.keys] using hnd)]
    rfl
  have himage : image = (events.filterMap valuesEv).map fun x => x.2.get? col := by
    simp only [image, htable]
    rfl
  have hlen : image.length = nPixels := by
    have h1 := hperm.length_eq
    rw [horder, List.length_map, List.length_range] at h1
    rw [himage, List.length_map, h1]
  have hplace : ∀ k p : Nat, (arrivalOrder events)[k]? = some p → ∃ r, (applyPixel engine f charges p).2 = .ok r ∧ image[k]? = some (r.values.get? col) := by
    intro k p hk
    have hp : p < nPixels := List.mem_range.1 (hperm.mem_iff.1 (List.mem_of_getElem? hk))
    obtain ⟨r, hr, hv, -⟩ := hrow p hp
    refine ⟨r, hr, ?_⟩
    rw [horder, List.getElem?_map] at hk
    cases hx : (events.filterMap valuesEv)[k]? with
    | none => rw [hx] at hk; cases hk
    | some x =>
      rw [hx] at hk
      simp only [Option.map_some, Option.some.injEq] at hk
      have hget : Dict.get? (events.filterMap valuesEv) p = some x.2 :=
        Dict.get?_of_mem_nodup hnd (by rw [← hk]; exact List.mem_of_getElem? hx)
      rw [rowOf_eq, htable, hget] at hv
      rw [himage, List.getElem?_map, hx, ← Option.some.inj hv]
      rfl
  refine ⟨hperm, hlen, hplace, fun hdiff => ⟨fun h => ?_, fun h p hp => ?_⟩⟩
  · have hol : (arrivalOrder events).length = nPixels := by rw [hperm.length_eq, List.length_range]
    refine List.ext_getElem? fun k => ?_
    by_cases hk : k < nPixels
    · obtain ⟨r, hr, hv⟩ := h k hk
      have hk' : k < (arrivalOrder events).length := by omega
      have hmem := List.getElem?_eq_getElem hk'
      obtain ⟨r', hr', hv'⟩ := hplace k _ hmem
      have hq : (arrivalOrder events)[k] < nPixels := List.mem_range.1 (hperm.mem_iff.1 (List.getElem_mem hk'))
      rw [hv] at hv'
      have := hdiff k _ r r' hk hq hr hr' (Option.some.inj hv')
      rw [hmem, ← this, List.getElem?_range hk]
    · rw [List.getElem?_eq_none (by omega), List.getElem?_eq_none (by simpa using hk)]
  · exact hplace p p (by rw [h, List.getElem?_range hp])

/-- such a run: the hypotheses of `C65_partial` are met by any of its orders of arrival -/
example : ∃ a b, [[0], [1]].map (worker firstBin twoPixels smallFitter) = ([[(0, a)], [(1, b)]] : List (List (Nat × PixelFit))).map .ok ∧ a ≠ b :=
  ⟨_, _, rfl, by decide +kernel⟩

/-! ## C83 -/

/-- the claim: the recorded initial value of each fit parameter is the one given to the minimiser -/
def RecordedIsStart : Prop :=
  ∀ (m : FitRequest → Except Err (Dict String ℚ)) (n : Nat) (config : Option SpecConfig) (charges : List (List ℚ)) (r : FitRequest) (initial : Dict String ℚ),
    (((mapmFitter n).loadConfig config).1.apply m charges).2 = .ok r →
    recordedInitial n ((mapmFitter n).loadConfig config).1.coll.params = .ok initial →
    ∀ x ∈ r.names, ∃ v, initial.get? x = some v ∧ r.kwargs.get? x = some (.start v)

/-- the claim is false: with a configured pedestal of 1 the table says 1, but the fit started from 0 -/
theorem C83_false : ¬ RecordedIsStart := by
  intro h
  obtain ⟨v, h1, h2⟩ := h (fun _ => .ok []) 1 (some ⟨none, none, some (some [("eped", 1)]), none, none⟩) [[0]] _ _ rfl rfl "eped" (by decide +kernel)
  have hv : v = 1 := by
    have : (some v : Option ℚ) = some 1 := by rw [← h1]; decide +kernel
    exact Option.some.inj this
  rw [hv] at h2
  revert h2
  decide +kernel

theorem mem_fitNames (n : Nat) (params : List SpecParam) (x : String) : x ∈ fitNames n params ↔ ∃ p ∈ params, x ∈ fitNamesOf n p := by
  simp [fitNames]

theorem get?_foldl_numbered (n : Nat) (v : ℚ) (d : Dict String ℚ) (x : String) :
    ((List.range n).foldl (fun d i => Dict.set d (numbered "lambda_" i) v) d).get? x =
      if x ∈ (List.range n).map (numbered "lambda_") then some v else d.get? x := by
  induction n with
  | zero => simp
  | succ n ih =>
    rw [List.range_succ, List.foldl_append, List.foldl_cons, List.foldl_nil, Dict.get?_set, ih, List.map_append, List.map_cons, List.map_nil]
    by_cases h : numbered "lambda_" n = x
    · rw [if_pos h, if_pos (by simp [h])]
    · rw [if_neg h]
      by_cases h2 : x ∈ (List.range n).map (numbered "lambda_")
      · rw [if_pos h2, if_pos (by rw [List.mem_append]; exact Or.inl h2)]
      · rw [if_neg h2, if_neg]
        rw [List.mem_append, not_or]
        exact ⟨h2, by simp [Ne.symm h]⟩

/-- the initial values recorded for a set of parameters whose only multi parameter is `lambda_` -/
theorem recorded_value (n : Nat) (params : List SpecParam) (hd : Distinct n params) (hm : ∀ p ∈ params, p.multi = true ↔ p.name = "lambda_")
    (hl : "lambda_" ∈ params.map (·.name)) :
    ∃ initial, recordedInitial n params = .ok initial ∧ (∀ x, x ∈ Dict.keys initial ↔ x ∈ fitNames n params) ∧
      ∀ p ∈ params, ∀ x ∈ fitNamesOf n p, initial.get? x = some p.initial := by
  obtain ⟨pl, hpl, hname⟩ := List.mem_map.1 hl
  obtain ⟨s1, s2, s3⟩ := savedSection params (·.initial) hd.1
  have hget := s3 pl hpl
  rw [hname] at hget
  generalize hD : params.foldl (fun d p => Dict.set d p.name p.initial) ([] : Dict String ℚ) = D at s1 s2 s3 hget
  have hrec : recordedInitial n params =
      .ok ((List.range n).foldl (fun d i => Dict.set d (numbered "lambda_" i) pl.initial) (D.erase "lambda_")) := by
    unfold recordedInitial
    simp only [hD, hget]
  have hplm : pl.multi = true := (hm pl hpl).2 hname
  have hplnames : fitNamesOf n pl = (List.range n).map (numbered "lambda_") := by
    unfold fitNamesOf
    rw [if_pos hplm]
    refine List.map_congr_left fun i _ => ?_
    simp [fitName, hplm, hname, numbered]
  have hother : ∀ p ∈ params, p.name ≠ "lambda_" → fitNamesOf n p = [p.name] := by
    intro p hp hne
    unfold fitNamesOf
    rw [if_neg]
    exact fun h => hne ((hm p hp).1 h)
  have huniq : ∀ p ∈ params, p.name = "lambda_" → p = pl := by
    intro p hp h
    exact List.inj_on_of_nodup_map hd.1 hp hpl (h.trans hname.symm)
  have hfitnodup : (fitNames n params).Nodup := by
    have hb := books n params hd
    rw [← hb.names]
    exact hb.slots
  -- the value recorded for the name of a parameter
  have hval : ∀ p ∈ params, ∀ x ∈ fitNamesOf n p,
      ((List.range n).foldl (fun d i => Dict.set d (numbered "lambda_" i) pl.initial) (D.erase "lambda_")).get? x = some p.initial := by
    intro p hp x hx
    rw [get?_foldl_numbered]
    by_cases h : p.name = "lambda_"
    · have := huniq p hp h
      subst this
      rw [if_pos (by rw [← hplnames]; exact hx)]
    · have hx' := hx
      rw [hother p hp h, List.mem_singleton] at hx'
      rw [if_neg]
      · rw [hx', get?_erase_ne _ _ _ (Ne.symm h)]
        exact s3 p hp
      · rw [← hplnames]
        intro hxl
        -- one name in the blocks of two parameters
        have hne : p ≠ pl := fun e => h (e ▸ hname)
        have hdis : ∀ ps : List SpecParam, p ∈ ps → pl ∈ ps → (fitNames n ps).Nodup → False := by
          intro ps
          induction ps with
          | nil => intro h; cases h
          | cons q qs ih =>
            intro h1 h2 hn
            rw [fitNames, List.flatMap_cons, List.nodup_append] at hn
            rcases List.mem_cons.1 h1 with e1 | h1'
            · rcases List.mem_cons.1 h2 with e2 | h2'
              · exact hne (e1.trans e2.symm)
              · exact hn.2.2 x (e1 ▸ hx) x ((mem_fitNames _ _ _).2 ⟨pl, h2', hxl⟩) rfl
            · rcases List.mem_cons.1 h2 with e2 | h2'
              · exact hn.2.2 x (e2 ▸ hxl) x ((mem_fitNames _ _ _).2 ⟨p, h1', hx⟩) rfl
              · exact ih h1' h2' hn.2.1
        exact hdis _ hp hpl hfitnodup
  refine ⟨_, hrec, ?_, hval⟩
  · intro x
    constructor
    · intro hx
      rw [Dict.mem_keys_iff] at hx
      obtain ⟨v, hv⟩ := hx
      rw [get?_foldl_numbered] at hv
      rw [mem_fitNames]
      by_cases h : x ∈ (List.range n).map (numbered "lambda_")
      · exact ⟨pl, hpl, by rw [hplnames]; exact h⟩
      · rw [if_neg h] at hv
        have hxl : "lambda_" ≠ x := by
          intro e
          rw [← e, keys_mem_erase D "lambda_" s1] at hv
          cases hv
        rw [get?_erase_ne _ _ _ hxl] at hv
        have := (s2 x).1 ((Dict.mem_keys_iff _ _).2 ⟨v, hv⟩)
        obtain ⟨p, hp, hpx⟩ := List.mem_map.1 this
        refine ⟨p, hp, ?_⟩
        rw [hother p hp (fun e => hxl (e.symm.trans hpx)), hpx]
        simp
    · intro hx
      obtain ⟨p, hp, hxp⟩ := (mem_fitNames _ _ _).1 hx
      exact (Dict.mem_keys_iff _ _).2 ⟨_, hval p hp x hxp⟩

/-- A fit whose keyword arguments were prepared from the present parameters starts from the recorded values, for every parameter set whose only
multi parameter is `lambda_`, and exactly the fit parameters are recorded. Missing from the full claim: `load_config` does not prepare. -/
theorem C83_partial (m : FitRequest → Except Err (Dict String ℚ)) (f : Fitter) (hb : Books f.coll.n f.coll.params f.coll.prep) (hd : Distinct f.coll.n f.coll.params)
    (hm : ∀ p ∈ f.coll.params, p.multi = true ↔ p.name = "lambda_") (hl : "lambda_" ∈ f.coll.params.map (·.name)) :
    ∃ initial, recordedInitial f.coll.n f.coll.params = .ok initial ∧
      (∀ x, x ∈ Dict.keys initial ↔ x ∈ fitNames f.coll.n f.coll.params) ∧
      ∀ charges r, (f.apply m charges).2 = .ok r → r.names = fitNames f.coll.n f.coll.params ∧
        ∀ x ∈ r.names, ∃ v, initial.get? x = some v ∧ r.kwargs.get? x = some (.start v) := by
  obtain ⟨initial, h1, h2, hval⟩ := recorded_value f.coll.n f.coll.params hd hm hl
  refine ⟨initial, h1, h2, ?_⟩
  intro charges r hr
  obtain ⟨hk, hn⟩ := apply_kwargs m f charges r hr
  refine ⟨hn.trans hb.names, fun x hx => ?_⟩
  rw [hn, hb.names] at hx
  obtain ⟨p, hp, hxp⟩ := (mem_fitNames _ _ _).1 hx
  exact ⟨p.initial, hval p hp x hxp, by rw [hk]; exact (hb.starts p hp x hxp).1⟩

/-- C83, exactly (missing from C83: the other configurations): with a configuration file the recorded values are those the fit started from exactly if the
file gives every parameter it names the initial value it has anyway. -/
theorem C83_exactly_partial (m : FitRequest → Except Err (Dict String ℚ)) (f : Fitter) (hb : Books f.coll.n f.coll.params f.coll.prep)
    (hd : Distinct f.coll.n f.coll.params) (hm : ∀ p ∈ f.coll.params, p.multi = true ↔ p.name = "lambda_") (hl : "lambda_" ∈ f.coll.params.map (·.name))
    (h0 : 0 < f.coll.n) (c : SpecConfig) (hi : Section c.initial) (hli : Section c.limits) (hfi : Section c.fixed) :
    ∃ initial, recordedInitial f.coll.n (f.loadConfig (some c)).1.coll.params = .ok initial ∧
      ∀ charges r, ((f.loadConfig (some c)).1.apply m charges).2 = .ok r →
        ((∀ x ∈ r.names, ∃ v, initial.get? x = some v ∧ r.kwargs.get? x = some (.start v)) ↔
          ∀ d, c.initial = some (some d) → ∀ p ∈ f.coll.params, ∀ v, d.get? p.name = some v → v = p.initial) := by
  have hparams := (C84_load f c hi hli hfi hd.1).1
  have hof : ∀ p, fitNamesOf f.coll.n (configured c p) = fitNamesOf f.coll.n p := fun p => rfl
  have hnames : fitNames f.coll.n (f.coll.params.map (configured c)) = fitNames f.coll.n f.coll.params := by
    unfold fitNames
    rw [List.flatMap_map]
    rfl
  obtain ⟨initial, h1, -, hval⟩ := recorded_value f.coll.n (f.coll.params.map (configured c))
    ⟨by rw [List.map_map]; exact hd.1, by rw [hnames]; exact hd.2⟩
    (by
      intro p hp
      obtain ⟨q, hq, rfl⟩ := List.mem_map.1 hp
      exact hm q hq)
    (by rw [List.map_map]; exact hl)
  rw [hparams]
  refine ⟨initial, h1, fun charges r hr => ?_⟩
  obtain ⟨hk, hn⟩ := apply_kwargs m _ charges r hr
  rw [loadConfig_prep] at hk hn
  have hstart : ∀ p ∈ f.coll.params, ∀ x ∈ fitNamesOf f.coll.n p, r.kwargs.get? x = some (.start p.initial) := by
    intro p hp x hx
    rw [hk]
    exact (hb.starts p hp x hx).1
  have hrec : ∀ p ∈ f.coll.params, ∀ x ∈ fitNamesOf f.coll.n p, initial.get? x = some (entryOr c.initial p.name p.initial) :=
    fun p hp x hx => hval (configured c p) (List.mem_map_of_mem hp) x hx
  constructor
  · intro h d hcd p hp v hv
    obtain ⟨x, hx⟩ : ∃ x, x ∈ fitNamesOf f.coll.n p := by
      unfold fitNamesOf
      split
      · exact ⟨_, List.mem_map_of_mem (List.mem_range.2 h0)⟩
      · exact ⟨_, List.mem_singleton.2 rfl⟩
    obtain ⟨w, hw1, hw2⟩ := h x (by rw [hn, hb.names]; exact (mem_fitNames _ _ _).2 ⟨p, hp, hx⟩)
    rw [hrec p hp x hx] at hw1
    rw [hstart p hp x hx] at hw2
    have e1 := Option.some.inj hw1
    have e2 := Option.some.inj hw2
    injection e2 with e2
    rw [e2, ← e1, hcd]
    simp only [entryOr, hv]
  · intro h x hx
    rw [hn, hb.names] at hx
    obtain ⟨p, hp, hxp⟩ := (mem_fitNames _ _ _).1 hx
    refine ⟨p.initial, ?_, hstart p hp x hxp⟩
    rw [hrec p hp x hxp]
    congr 1
    unfold entryOr
    split
    · rename_i d hcd
      split
      · rename_i v hv
        exact h d hcd p hp v hv
      · rfl
    · rfl

/-! ## the parameters of the fitters -/

theorem kw_nodup (l : List String) (hn : l.Nodup) (h : ∀ x ∈ l, x.toList.take 2 ≠ ['l', 'i'] ∧ x.toList.take 2 ≠ ['f', 'i']) :
    (l.flatMap fun x => [x, "limit_" ++ x, "fix_" ++ x]).Nodup := by
  have take1 : ∀ x : String, ("limit_" ++ x).toList.take 2 = ['l', 'i'] := fun x => by simp
  have take2 : ∀ x : String, ("fix_" ++ x).toList.take 2 = ['f', 'i'] := fun x => by simp
  have inj1 : ∀ x y : String, "limit_" ++ x = "limit_" ++ y → x = y := by
    intro x y e
    have := congrArg String.toList e
    simp only [String.toList_append] at this
    exact String.toList_inj.1 (List.append_cancel_left this)
  have inj2 : ∀ x y : String, "fix_" ++ x = "fix_" ++ y → x = y := by
    intro x y e
    have := congrArg String.toList e
    simp only [String.toList_append] at this
    exact String.toList_inj.1 (List.append_cancel_left this)
  have diff : ∀ x y : String, "limit_" ++ x ≠ "fix_" ++ y := by
    intro x y e
    have := congrArg (fun s : String => s.toList.take 2) e
    simp only [take1, take2] at this
    revert this
    decide
  induction l with
  | nil => simp
  | cons x l ih =>
    rw [List.nodup_cons] at hn
    have hx := h x List.mem_cons_self
    have hl := fun y hy => h y (List.mem_cons_of_mem _ hy)
    have n1 : ∀ y ∈ x :: l, ∀ z, y ≠ "limit_" ++ z := fun y hy z e => (h y hy).1 (by rw [e]; exact take1 z)
    have n2 : ∀ y ∈ x :: l, ∀ z, y ≠ "fix_" ++ z := fun y hy z e => (h y hy).2 (by rw [e]; exact take2 z)
    rw [List.flatMap_cons, List.nodup_append]
    refine ⟨?_, ih hn.2 hl, ?_⟩
    · have a1 := n1 x List.mem_cons_self x
      have a2 := n2 x List.mem_cons_self x
      have a3 := diff x x
      simp only [List.nodup_cons, List.mem_cons, List.not_mem_nil, or_false, not_or, not_false_eq_true, List.nodup_nil, and_true]
      exact ⟨⟨a1, a2⟩, a3⟩
    · intro a ha b hb e
      obtain ⟨y, hy, hb⟩ := List.mem_flatMap.1 hb
      have hy' : y ∈ x :: l := List.mem_cons_of_mem _ hy
      have hne : x ≠ y := fun e => hn.1 (e ▸ hy)
      simp only [List.mem_cons, List.not_mem_nil, or_false] at ha hb
      rcases ha with rfl | rfl | rfl <;> rcases hb with rfl | rfl | rfl
      · exact hne e
      · exact n1 _ List.mem_cons_self _ e
      · exact n2 _ List.mem_cons_self _ e
      · exact n1 _ hy' _ e.symm
      · exact hne (inj1 _ _ e)
      · exact diff _ _ e
      · exact n2 _ hy' _ e.symm
      · exact diff _ _ e.symm
      · exact hne (inj2 _ _ e)


theorem numbered_inj (i j : Nat) (h : numbered "lambda_" i = numbered "lambda_" j) : i = j := by
  have := congrArg String.toList h
  simp only [numbered, String.toList_append] at this
  have e := String.ofList_inj.1 (String.toList_inj.1 (List.append_cancel_left this))
  rw [← parseDec_decimal i, e, parseDec_decimal]

theorem numbered_take (i : Nat) : (numbered "lambda_" i).toList.take 2 = ['l', 'a'] := by simp [numbered]

/-- one shared parameter after another and a light level for each illumination -/
theorem distinct_lambda (n : Nat) (shared : List SpecParam) (l : SpecParam) (hs : ∀ p ∈ shared, p.multi = false)
    (hn : (shared.map (·.name)).Nodup) (ht : ∀ p ∈ shared, p.name.toList.take 2 ∉ [['l', 'a'], ['l', 'i'], ['f', 'i']])
    (hl : l.name = "lambda_") (hm : l.multi = true) : Distinct n (shared ++ [l]) := by
  have hnames : fitNames n (shared ++ [l]) = shared.map (·.name) ++ (List.range n).map (numbered "lambda_") := by
    unfold fitNames
    rw [List.flatMap_append]
    congr 1
    · clear hn ht
      induction shared with
      | nil => rfl
      | cons p ps ih =>
        rw [List.flatMap_cons, ih fun q hq => hs q (List.mem_cons_of_mem _ hq), List.map_cons]
        have : p.multi = false := hs p List.mem_cons_self
        simp [fitNamesOf, this]
    · simp only [List.flatMap_cons, List.flatMap_nil, List.append_nil, fitNamesOf, hm, if_true]
      refine List.map_congr_left fun i _ => ?_
      simp [fitName, hm, hl, numbered]
  have htake : ∀ p ∈ shared, p.name ≠ "lambda_" := by
    intro p hp e
    refine ht p hp ?_
    rw [e]
    decide
  constructor
  · rw [List.map_append, List.nodup_append]
    refine ⟨hn, by simp, ?_⟩
    intro a ha b hb e
    obtain ⟨p, hp, rfl⟩ := List.mem_map.1 ha
    simp only [List.map_cons, List.map_nil, List.mem_singleton] at hb
    exact htake p hp (e.trans (hb.trans hl))
  · rw [hnames]
    apply kw_nodup
    · rw [List.nodup_append]
      refine ⟨hn, List.Nodup.map (fun i j h => numbered_inj i j h) List.nodup_range, ?_⟩
      intro a ha b hb e
      obtain ⟨p, hp, rfl⟩ := List.mem_map.1 ha
      obtain ⟨i, -, rfl⟩ := List.mem_map.1 hb
      refine ht p hp ?_
      rw [e, numbered_take]
      decide
    · intro x hx
      rcases List.mem_append.1 hx with hx | hx
      · obtain ⟨p, hp, rfl⟩ := List.mem_map.1 hx
        have := ht p hp
        simp only [List.mem_cons, List.not_mem_nil, or_false, not_or] at this
        exact ⟨this.2.1, this.2.2⟩
      · obtain ⟨i, -, rfl⟩ := List.mem_map.1 hx
        rw [numbered_take]
        decide

/-- the parameters of both fitters have distinct names for every number of illuminations, so that their books are in order and the values recorded
without a configuration are those the fit starts from -/
theorem C61_fitters (n : Nat) : Distinct n gentileParams ∧ Distinct n mapmParams := by
  constructor
  · exact distinct_lambda n (gentileParams.take 5) ⟨"lambda_", 7 / 10, (0, 6), false, true⟩ (by decide +kernel) (by decide +kernel) (by decide +kernel) rfl rfl
  · exact distinct_lambda n (mapmParams.take 4) ⟨"lambda_", 7 / 10, (0, 6), false, true⟩ (by decide +kernel) (by decide +kernel) (by decide +kernel) rfl rfl

/-- without a configuration file the recorded values are the start of the fit, for both fitters and every number of illuminations -/
theorem C83_unconfigured (m : FitRequest → Except Err (Dict String ℚ)) (n : Nat) (f : Fitter) (hf : f = gentileFitter n ∨ f = mapmFitter n) :
    ∃ initial, recordedInitial n f.coll.params = .ok initial ∧
      ∀ charges r, (f.apply m charges).2 = .ok r → ∀ x ∈ r.names, ∃ v, initial.get? x = some v ∧ r.kwargs.get? x = some (.start v) := by
  rcases hf with rfl | rfl
  · obtain ⟨initial, h1, -, h3⟩ := C83_partial m (gentileFitter n) (C61_new n _ (C61_fitters n).1) (C61_fitters n).1
      (by simp only [gentileFitter, Fitter.new, Collection.new]; decide +kernel)
      (by simp only [gentileFitter, Fitter.new, Collection.new]; decide +kernel)
    exact ⟨initial, h1, fun charges r hr => (h3 charges r hr).2⟩
  · obtain ⟨initial, h1, -, h3⟩ := C83_partial m (mapmFitter n) (C61_new n _ (C61_fitters n).2) (C61_fitters n).2
      (by simp only [mapmFitter, Fitter.new, Collection.new]; decide +kernel)
      (by simp only [mapmFitter, Fitter.new, Collection.new]; decide +kernel)
    exact ⟨initial, h1, fun charges r hr => (h3 charges r hr).2⟩

/-- the hypotheses hold for the fitters of the camera, here with a file that sets the pedestal -/
example (m : FitRequest → Except Err (Dict String ℚ)) (n : Nat) (h0 : 0 < n) (v : ℚ) :
    ∃ initial, recordedInitial n ((mapmFitter n).loadConfig (some ⟨none, none, some (some [("eped", v)]), none, none⟩)).1.coll.params = .ok initial ∧
      ∀ charges r, (((mapmFitter n).loadConfig (some ⟨none, none, some (some [("eped", v)]), none, none⟩)).1.apply m charges).2 = .ok r →
        ((∀ x ∈ r.names, ∃ v, initial.get? x = some v ∧ r.kwargs.get? x = some (.start v)) ↔
          ∀ d, some (some [("eped", v)]) = some (some d) → ∀ p ∈ mapmParams, ∀ w, Dict.get? d p.name = some w → w = p.initial) :=
  C83_exactly_partial m (mapmFitter n) (C61_new n _ (C61_fitters n).2) (C61_fitters n).2
    (by simp only [mapmFitter, Fitter.new, Collection.new]; decide +kernel)
    (by simp only [mapmFitter, Fitter.new, Collection.new]; decide +kernel) h0 _
    (by intro t ht; obtain rfl := Option.some.inj ht; exact ⟨_, rfl, by simp [Dict.keys]⟩)
    (by intro t ht; cases ht) (by intro t ht; cases ht)

end Verif.Props
