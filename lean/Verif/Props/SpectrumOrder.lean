import Verif.Props.SpeFromDl1

/-!
# C170: what a fit of single-photoelectron spectra takes from the charges

Only how often each charge within the range of the fitter occurs, for the pixel that is fitted. The order of the events, charges outside the range, and the other pixels do not matter.
-/

namespace Verif.Props

open Verif.Py Verif.Model Verif.Spec Verif.Lemmas

variable {τ ν μ : Type}

/-! ### vocabulary -/

/-- the charges a fitter counts: those within its range, or, if that has no width, within half a unit of it -/
def InFitRange (f : Fitter) (x : ℚ) : Prop := f.range.1 ≤ x ∧ x ≤ f.range.2 ∨ f.range.1 = f.range.2 ∧ |x - f.range.1| ≤ 1 / 2

open Classical in
/-- the same charges are counted, perhaps in another order -/
def SameCounted (f : Fitter) (qs qs' : List ℚ) : Prop := (qs.filter fun x => decide (InFitRange f x)).Perm (qs'.filter fun x => decide (InFitRange f x))

/-- the charges of a pixel in two files: the pixel exists in both or in none, and the same charges are counted -/
def SamePixel (f : Fitter) (pixel : Nat) (a a' : ChargeArray) : Prop :=
  (pixel < a.nPixels ↔ pixel < a'.nPixels) ∧ (pixel < a.nPixels → SameCounted f (a.rows.map fun r => r.getD pixel 0) (a'.rows.map fun r => r.getD pixel 0))

/-! ### histograms -/

theorem counted_outer (f : Fitter) (x : ℚ) (h : f.range.1 ≤ f.range.2) : InFitRange f x ↔ (outerEdges f.range).1 ≤ x ∧ x ≤ (outerEdges f.range).2 := by
  unfold InFitRange outerEdges
  by_cases he : f.range.1 = f.range.2
  · rw [if_pos he, abs_le]
    simp only
    constructor
    · rintro (⟨h1, h2⟩ | ⟨-, h1, h2⟩) <;> constructor <;> linarith
    · rintro ⟨h1, h2⟩
      exact Or.inr ⟨he, by linarith, by linarith⟩
  · rw [if_neg he]
    constructor
    · rintro (h | ⟨h, -⟩)
      · exact h
      · exact absurd h he
    · exact Or.inl

theorem inBin_within (nBins : Nat) (range : ℚ × ℚ) (hn : 0 < nBins) (hr : range.1 < range.2) (bin : ℚ × ℚ × Bool) (hb : bin ∈ binsOf (histEdges nBins range)) (x : ℚ)
    (h : inBin bin x = true) : range.1 ≤ x ∧ x ≤ range.2 := by
  obtain ⟨e1, e2, e3, -⟩ := C86_edges nBins range hn
  have hinc := histEdges_lt nBins range hn hr
  by_contra hc
  revert e1 e2 e3 hinc hb
  cases histEdges nBins range with
  | nil => intro hb; cases hb
  | cons a edges =>
    intro hb e1 e2 e3 hinc
    simp only [List.getElem?_cons_zero, Option.some.injEq] at e2
    have hl : (a :: edges).getLast (by simp) = range.2 := by
      have := List.getLast?_eq_getElem? (l := a :: edges)
      rw [e1, Nat.add_sub_cancel, e3, List.getLast?_eq_getLast_of_ne_nil (by simp)] at this
      exact Option.some.inj this
    have := no_bin edges a hinc x (by rw [hl, e2]; rw [not_and_or, not_le, not_le] at hc; exact hc)
    have hm : bin ∈ (binsOf (a :: edges)).filter fun bin => inBin bin x := List.mem_filter.2 ⟨hb, h⟩
    rw [this] at hm
    cases hm

theorem histCounts_same (f : Fitter) (hn : 0 < f.nBins) (hr : f.range.1 ≤ f.range.2) (qs qs' : List ℚ) (h : SameCounted f qs qs') :
    histCounts f.nBins (outerEdges f.range) qs = histCounts f.nBins (outerEdges f.range) qs' := by
  classical
  have hout : (outerEdges f.range).1 < (outerEdges f.range).2 := by
    unfold outerEdges
    by_cases he : f.range.1 = f.range.2
    · rw [if_pos he]
      simp only
      linarith
    · rw [if_neg he]
      exact lt_of_le_of_ne hr he
  unfold histCounts
  refine List.map_congr_left fun bin hb => ?_
  have key : ∀ l : List ℚ, l.filter (fun x => inBin bin x) = (l.filter fun x => decide (InFitRange f x)).filter fun x => inBin bin x := by
    intro l
    rw [List.filter_filter]
    refine List.filter_congr fun x _ => ?_
    by_cases hx : inBin bin x = true
    · have := (counted_outer f x hr).2 (inBin_within f.nBins _ hn hout bin hb x hx)
      simp [hx, this]
    · simp [hx]
  unfold SameCounted at h
  rw [key qs, key qs']
  exact_mod_cast (List.Perm.filter _ (by convert h)).length_eq

theorem apply_counted (m : FitRequest → Except Err (Dict String ℚ)) (f : Fitter) (qss qss' : List (List ℚ)) (h : List.Forall₂ (SameCounted f) qss qss') :
    f.apply m qss = f.apply m qss' := by
  unfold Fitter.apply
  rw [h.length_eq]
  by_cases h1 : qss'.length ≠ f.coll.n
  · rw [if_pos h1, if_pos h1]
  · rw [if_neg h1, if_neg h1]
    by_cases h2 : 0 < f.coll.n ∧ ¬ (0 < f.nBins ∧ f.range.1 ≤ f.range.2)
    · rw [if_pos h2, if_pos h2]
    · rw [if_neg h2, if_neg h2]
      have hm : qss.map (histCounts f.nBins (outerEdges f.range)) = qss'.map (histCounts f.nBins (outerEdges f.range)) := by
        by_cases h0 : 0 < f.coll.n
        · have h3 : 0 < f.nBins ∧ f.range.1 ≤ f.range.2 := by
            by_contra hc
            exact h2 ⟨h0, hc⟩
          clear h1 h2
          induction h with
          | nil => rfl
          | cons hh _ ih => rw [List.map_cons, List.map_cons, ih, histCounts_same f h3.1 h3.2 _ _ hh]
        · push Not at h1
          have : qss' = [] := List.length_eq_zero_iff.1 (by omega)
          subst this
          cases h
          rfl
      simp only [hm]

/-! ### C170 -/

/-- C170: The fit of a pixel is the same for charges that are the same, up to their order, within the range of the fitter. -/
theorem C170_fit (engine : FitEngine) (f : Fitter) (qss qss' : List (List ℚ)) (h : List.Forall₂ (SameCounted f) qss qss') (fit : PixelFit) :
    FitOf engine f qss fit ↔ FitOf engine f qss' fit := by
  unfold FitOf
  rw [apply_counted engine.minimise f qss qss' h]

theorem pixel_mapM (f : Fitter) (pixel : Nat) (charges charges' : List ChargeArray) (h : List.Forall₂ (SamePixel f pixel) charges charges') :
    (∃ qss qss', charges.mapM (·.pixel pixel) = .ok qss ∧ charges'.mapM (·.pixel pixel) = .ok qss' ∧ List.Forall₂ (SameCounted f) qss qss') ∨
    charges.mapM (·.pixel pixel) = .error .indexError ∧ charges'.mapM (·.pixel pixel) = .error .indexError := by
  induction h with
  | nil => exact Or.inl ⟨[], [], rfl, rfl, .nil⟩
  | @cons a a' as as' ha _ ih =>
    rw [List.mapM_cons, List.mapM_cons]
    unfold ChargeArray.pixel
    by_cases hp : pixel < a.nPixels
    · rw [if_pos hp, if_pos (ha.1.1 hp)]
      rcases ih with ⟨qss, qss', i1, i2, i3⟩ | ⟨i1, i2⟩
      · unfold ChargeArray.pixel at i1 i2
        rw [i1, i2]
        exact Or.inl ⟨_, _, rfl, rfl, .cons (ha.2 hp) i3⟩
      · unfold ChargeArray.pixel at i1 i2
        rw [i1, i2]
        exact Or.inr ⟨rfl, rfl⟩
    · rw [if_neg hp, if_neg fun hc => hp (ha.1.2 hc)]
      exact Or.inr ⟨rfl, rfl⟩

/-- The entries of a pixel, or the exception, depend on the charges of that pixel within the range only, up to their order, whatever a fitter with the same settings fitted before and whatever the
charges of the other pixels are. -/
theorem C170_pixel (engine : FitEngine) (f g : Fitter) (hg : SameSettings f g) (hf : f.coll.lookupTyped.2 = f.coll.prep.lookup) (charges charges' : List ChargeArray) (pixel : Nat)
    (h : List.Forall₂ (SamePixel f pixel) charges charges') : (applyPixel engine f charges pixel).2 = (applyPixel engine g charges' pixel).2 := by
  rw [(applyPixel_same engine f g hg hf charges' pixel).1]
  unfold applyPixel
  rcases pixel_mapM f pixel charges charges' h with ⟨qss, qss', h1, h2, h3⟩ | ⟨h1, h2⟩
  · rw [h1, h2]
    simp only [apply_counted engine.minimise f qss qss' h3]
  · rw [h1, h2]

/-! ### the program -/

theorem worker_counted (engine : FitEngine) (f : Fitter) (hf : f.coll.lookupTyped.2 = f.coll.prep.lookup) (charges charges' : List ChargeArray) (pixels : List Nat)
    (h : ∀ pixel ∈ pixels, List.Forall₂ (SamePixel f pixel) charges charges') (g g' : Fitter) (hg : SameSettings f g) (hg' : SameSettings f g') :
    worker engine charges g pixels = worker engine charges' g' pixels := by
  induction pixels generalizing g g' with
  | nil => rfl
  | cons p ps ih =>
    have h1 := applyPixel_same engine f g hg hf charges p
    have h2 := applyPixel_same engine f g' hg' hf charges' p
    have h3 := C170_pixel engine f f ⟨rfl, rfl, rfl, rfl, hf⟩ hf charges charges' p (h p (by simp))
    unfold worker
    revert h1 h2
    rcases applyPixel engine g charges p with ⟨k, r⟩
    rcases applyPixel engine g' charges' p with ⟨k', r'⟩
    rintro ⟨h1, h1'⟩ ⟨h2, h2'⟩
    simp only at h1 h2 h1' h2'
    obtain rfl : r = r' := by rw [h1, h2, h3]
    cases r with
    | error e => rfl
    | ok r => simp only [ih (fun p hp => h p (by simp [hp])) k k' h1' h2']

/-- two files for the script: the same numbers of events and pixels and the same mapping; the columns can both be read or fail alike, and for every pixel the same charges are counted -/
structure SameInput (f : Fitter) (col : String) (d d' : SpeInput μ ν) : Prop where
  nEvents : d.nEvents = d'.nEvents
  nPixels : d.nPixels = d'.nPixels
  mapping : d.mapping = d'.mapping
  fails : ∀ e, d.charges col = .error e ↔ d'.charges col = .error e
  charges : ∀ a a', d.charges col = .ok a → d'.charges col = .ok a' → ∀ pixel < d.nPixels,
    SameCounted f (a.rows.map fun r => r.getD pixel 0) (a'.rows.map fun r => r.getD pixel 0)

theorem charges_nPixels (d : SpeInput μ ν) (col : String) (a : ChargeArray) (h : d.charges col = .ok a) : a.nPixels = d.nPixels := by
  unfold SpeInput.charges at h
  split at h
  · cases h
  · split at h
    · cases h
    · cases h; rfl

/-- what is read from two such files -/
def SameArray (f : Fitter) (x x' : Nat × ChargeArray) : Prop := x.1 = x'.1 ∧ x.2.nPixels = x'.2.nPixels ∧ ∀ pixel, pixel < x.2.nPixels →
  SameCounted f (x.2.rows.map fun r => r.getD pixel 0) (x'.2.rows.map fun r => r.getD pixel 0)

theorem readInputs_counted (f : Fitter) (col : String) (ds ds' : List (SpeInput μ ν)) (h : List.Forall₂ (SameInput f col) ds ds')
    (mapping : Option (List μ × MetaDict (SpeObj ν))) :
    (∃ e, readInputs col ds mapping = .error e ∧ readInputs col ds' mapping = .error e) ∨
    ∃ as as' m, readInputs col ds mapping = .ok (as, m) ∧ readInputs col ds' mapping = .ok (as', m) ∧ as.length = ds.length ∧
      List.Forall₂ (SameArray f) as as' := by
  induction h generalizing mapping with
  | nil => exact Or.inr ⟨[], [], mapping, rfl, rfl, rfl, .nil⟩
  | @cons d d' ds ds' hd hds ih =>
    unfold readInputs
    cases hc : d.charges col with
    | error e =>
      rw [(hd.fails e).1 hc]
      exact Or.inl ⟨e, rfl, rfl⟩
    | ok a =>
      cases hc' : d'.charges col with
      | error e => rw [(hd.fails e).2 hc'] at hc; cases hc
      | ok a' =>
        simp only [← hd.mapping]
        have n1 := charges_nPixels d col a hc
        have n2 := charges_nPixels d' col a' hc'
        have hcons : ∀ as as' : List (Nat × ChargeArray), List.Forall₂ (SameArray f) as as' → List.Forall₂ (SameArray f) ((d.nEvents, a) :: as) ((d'.nEvents, a') :: as') := by
          intro as as' i4
          refine .cons ⟨hd.nEvents, ?_, ?_⟩ i4
          · rw [n1, n2, hd.nPixels]
          · intro pixel hp
            exact hd.charges a a' hc hc' pixel (by rw [← n1]; exact hp)
        cases mapping with
        | some m =>
          simp only
          rcases ih (some m) with ⟨e, i1, i2⟩ | ⟨as, as', m', i1, i2, i3, i4⟩
          · rw [i1, i2]
            exact Or.inl ⟨e, rfl, rfl⟩
          · rw [i1, i2]
            exact Or.inr ⟨_, _, _, rfl, rfl, by simp [i3], hcons _ _ i4⟩
        | none =>
          cases d.mapping with
          | error e => exact Or.inl ⟨e, rfl, rfl⟩
          | ok m =>
            simp only
            rcases ih (some m) with ⟨e, i1, i2⟩ | ⟨as, as', m', i1, i2, i3, i4⟩
            · rw [i1, i2]
              exact Or.inl ⟨e, rfl, rfl⟩
            · rw [i1, i2]
              exact Or.inr ⟨_, _, _, rfl, rfl, by simp [i3], hcons _ _ i4⟩

/-- The whole file, or the exception `extract_spe` ends with, is the same for files with the events in another order, and whatever the charges outside the range of the fitter are. -/
theorem C170_file (engine : FitEngine) (mem : List (SpeRow μ) → Nat) (order : List String) (name : String) (make : Nat → Fitter)
    (hmk : ∀ n, (make n).coll.lookupTyped.2 = (make n).coll.prep.lookup) (col : String) (inputs inputs' : List (String × SpeInput μ ν))
    (h : List.Forall₂ (fun i i' => i.1 = i'.1 ∧ SameInput (make inputs.length) col i.2 i'.2) inputs inputs') :
    extractSpe (processPixels engine) mem order name make col inputs = extractSpe (processPixels engine) mem order name make col inputs' := by
  have hnames : inputs.map (·.1) = inputs'.map (·.1) := by
    clear hmk
    generalize make inputs.length = f at h
    induction h with
    | nil => rfl
    | cons hh _ ih => rw [List.map_cons, List.map_cons, ih, hh.1]
  have hin : List.Forall₂ (SameInput (make inputs.length) col) (inputs.map (·.2)) (inputs'.map (·.2)) := by
    rw [List.forall₂_map_left_iff, List.forall₂_map_right_iff]
    exact h.imp fun _ _ hh => hh.2
  unfold extractSpe
  rcases readInputs_counted (make inputs.length) col _ _ hin none with ⟨e, r1, r2⟩ | ⟨as, as', m, r1, r2, r3, r4⟩
  · rw [r1, r2]
  · rw [r1, r2]
    have hl := r4.length_eq
    rw [List.length_map] at r3
    simp only [← hl]
    cases recordedInitial as.length (make as.length).coll.params with
    | error e => rfl
    | ok initial =>
      simp only
      have hw : ∀ n, processPixels engine (make as.length) (as.map (·.2)) n = processPixels engine (make as.length) (as'.map (·.2)) n := by
        intro n
        have hs : SameSettings (make as.length) (make as.length) := ⟨rfl, rfl, rfl, rfl, hmk _⟩
        unfold processPixels
        rw [worker_counted engine (make as.length) (hmk _) (as.map (·.2)) (as'.map (·.2)) (List.range n) (fun pixel _ => ?_) _ _ hs hs]
        rw [List.forall₂_map_left_iff, List.forall₂_map_right_iff, r3]
        exact r4.imp fun x x' hx => ⟨by rw [hx.2.1], hx.2.2 pixel⟩
      cases r4 with
      | nil => rfl
      | @cons x x' xs xs' hx hxs =>
        cases m with
        | none => rfl
        | some m =>
          simp only [hnames]
          have hn : x.2.nPixels = x'.2.nPixels := hx.2.1
          rw [hw x.2.nPixels, hx.1, hn]

/-- the pixel has the same counted charges in both files, as they are read from them event by event -/
def SameInFiles [DecidableEq ν] (f : Fitter) (col : String) (pixel : Nat) (d d' : Dl1Input τ ν) : Prop :=
  ∀ qs qs', ChargesIn d.reader col d.ids pixel qs → ChargesIn d'.reader col d'.ids pixel qs' → SameCounted f qs qs'

/-- From the DL1 files to the plots: two lists of extracted files which have, for one pixel, the same charges within the range of the fitter, in any order and in any events. However the pixels of
either are distributed over processes and whatever the other pixels are, the plots of the two SPE files show the same fit for this pixel. -/
theorem C170_plots [DecidableEq ν] (engine : FitEngine) (process process' : Fitter → List ChargeArray → Nat → Except Err SpeStore)
    (mem : List (SpeRow (DRow (Dict String (Cell τ)))) → Nat) (hmem : ∀ rows, rows ≠ [] → 0 < mem rows) (order : List String)
    (ho : order.Perm ["values", "errors", "arrays"]) (name : String) (make : Nat → Fitter) (col : String) (h1 : col ≠ "iev") (h2 : col ≠ "pixel")
    (hpr : ∀ f charges n s, process f charges n = .ok s → Scheduled engine f charges n s) (hpr' : ∀ f charges n s, process' f charges n = .ok s → Scheduled engine f charges n s)
    (hmk : ∀ n, (make n).coll.lookupTyped.2 = (make n).coll.prep.lookup)
    (n n' : Nat) (hp : n ≤ 2 ^ 32) (hp' : n' ≤ 2 ^ 32) (files files' : List (Dl1Input τ ν)) (hf : ∀ d ∈ files, WithNumbers n col d) (hf' : ∀ d ∈ files', WithNumbers n' col d)
    (pixel : Nat) (hn : pixel < n) (hn' : pixel < n') (hsame : List.Forall₂ (SameInFiles (make files.length) col pixel) files files')
    (store store' : Store (SpeRow (DRow (Dict String (Cell τ)))) (SpeObj ν)) (h : extractSpeFiles process mem order name make col (files.map fun d => (d.path, d.file)) = .ok store)
    (h' : extractSpeFiles process' mem order name make col (files'.map fun d => (d.path, d.file)) = .ok store') (hsz : SmallTables store) (hsz' : SmallTables store') :
    ∃ r r' initial fit, openReader store = .ok r ∧ openReader store' = .ok r' ∧ (∀ plots, plotSpe r pixel = .ok plots → Shows files.length name initial fit plots) ∧
      ∀ plots, plotSpe r' pixel = .ok plots → Shows files.length name initial fit plots := by
  obtain ⟨r, initial, a1, a2, a3⟩ := C156_fits engine process mem hmem order ho name make col h1 h2 hpr hmk n (by omega) hp files hf store h hsz
  obtain ⟨r', initial', b1, b2, b3⟩ := C156_fits engine process' mem hmem order ho name make col h1 h2 hpr' hmk n' (by omega) hp' files' hf' store' h' hsz'
  have hl := hsame.length_eq
  rw [← hl] at b2 b3
  obtain rfl := Except.ok.inj (a2.symm.trans b2)
  obtain ⟨qss, fit, c1, c2, c3⟩ := (a3 pixel).1 hn
  obtain ⟨qss', fit', d1, d2, d3⟩ := (b3 pixel).1 hn'
  have hq : List.Forall₂ (SameCounted (make files.length)) qss qss' := by
    clear a2 a3 b2 b3 c2 c3 d2 d3 h h' hf hf' hl
    generalize make files.length = f at hsame
    induction hsame generalizing qss qss' with
    | nil => cases c1; cases d1; exact .nil
    | cons hh _ ih =>
      cases c1 with
      | cons c c1 =>
        cases d1 with
        | cons d d1 => exact .cons (hh _ _ c d) (ih _ c1 _ d1)
  have hfit := (C170_fit engine (make files.length) qss qss' hq fit).1 c2
  obtain rfl : fit = fit' := by
    obtain ⟨q1, e1, e2⟩ := hfit
    obtain ⟨q2, g1, g2⟩ := d2
    obtain rfl := Except.ok.inj (e1.symm.trans g1)
    exact Except.ok.inj (e2.symm.trans g2)
  exact ⟨r, r', initial, fit, a1, b1, c3, d3⟩

/-! ### examples -/

/-- two files of two pixels; pixel 1 has a charge outside the range 0 to 4 of the fitter -/
def firstOrder : List (String × SpeInput Nat Nat) :=
  [("a", ⟨[("charge", [0, 3, 1, 9, 2, 3])], 3, 2, .ok ([7, 8], [("n_pixels", .int 2)])⟩), ("b", ⟨[("charge", [3, 0])], 1, 2, .error .keyError⟩)]

/-- the events of the first file in another order, and another charge outside the range -/
def otherOrder : List (String × SpeInput Nat Nat) :=
  [("a", ⟨[("charge", [2, 3, 0, 3, 1, -5])], 3, 2, .ok ([7, 8], [("n_pixels", .int 2)])⟩), ("b", ⟨[("charge", [3, 0])], 1, 2, .error .keyError⟩)]

open Classical in
theorem counted_level (n : Nat) (x : ℚ) : decide (InFitRange (levelFitter n) x) = decide (0 ≤ x ∧ x ≤ 4) := by
  rw [decide_eq_decide]
  unfold InFitRange levelFitter Fitter.new
  constructor
  · rintro (h | ⟨h, -⟩)
    · exact h
    · norm_num at h
  · exact Or.inl

theorem orders_same : List.Forall₂ (fun i i' => i.1 = i'.1 ∧ SameInput (levelFitter 2) "charge" i.2 i'.2) firstOrder otherOrder := by
  have ha : (SpeInput.mk (μ := Nat) (ν := Nat) [("charge", [0, 3, 1, 9, 2, 3])] 3 2 (.ok ([7, 8], [("n_pixels", .int 2)]))).charges "charge" =
    .ok ⟨2, [[0, 3], [1, 9], [2, 3]]⟩ := rfl
  have hb : (SpeInput.mk (μ := Nat) (ν := Nat) [("charge", [2, 3, 0, 3, 1, -5])] 3 2 (.ok ([7, 8], [("n_pixels", .int 2)]))).charges "charge" =
    .ok ⟨2, [[2, 3], [0, 3], [1, -5]]⟩ := rfl
  refine .cons ⟨rfl, rfl, rfl, rfl, fun e => ?_, ?_⟩ (.cons ⟨rfl, rfl, rfl, rfl, fun e => Iff.rfl, ?_⟩ .nil)
  · simp only [ha, hb]
    constructor <;> intro h <;> cases h
  · intro a a' h h'
    simp only [ha, Except.ok.injEq] at h
    simp only [hb, Except.ok.injEq] at h'
    subst h h'
    intro pixel hp
    unfold SameCounted
    simp only [counted_level]
    have : pixel = 0 ∨ pixel = 1 := by simp at hp; omega
    rcases this with rfl | rfl <;> decide +kernel
  · intro a a' h h'
    rw [h] at h'
    cases h'
    exact fun _ _ => List.Perm.refl _

/-- both give the same file -/
example : extractSpe (processPixels countEngine) (fun rows => rows.length) ["errors", "values", "arrays"] "Level" levelFitter "charge" firstOrder =
    extractSpe (processPixels countEngine) (fun rows => rows.length) ["errors", "values", "arrays"] "Level" levelFitter "charge" otherOrder :=
  C170_file countEngine _ _ _ levelFitter (fun _ => rfl) "charge" firstOrder otherOrder orders_same

/-- and there is one -/
example : ∃ store, extractSpe (processPixels countEngine) (fun rows => rows.length) ["errors", "values", "arrays"] "Level" levelFitter "charge" firstOrder = .ok store := ⟨_, rfl⟩

/-- the charges within the range do matter: one more charge in the first bin -/
example : (∀ fit, FitOf countEngine (levelFitter 1) [[0, 3]] fit → ¬ FitOf countEngine (levelFitter 1) [[0, 1]] fit) ∧ ∃ fit, FitOf countEngine (levelFitter 1) [[0, 3]] fit := by
  have h1 : ∃ fit, FitOf countEngine (levelFitter 1) [[0, 3]] fit ∧ Dict.get? fit.values "eped" = some 1 := ⟨_, ⟨_, rfl, rfl⟩, by decide +kernel⟩
  have h2 : ∃ fit, FitOf countEngine (levelFitter 1) [[0, 1]] fit ∧ Dict.get? fit.values "eped" = some 2 := ⟨_, ⟨_, rfl, rfl⟩, by decide +kernel⟩
  have uniq : ∀ qs x y, FitOf countEngine (levelFitter 1) qs x → FitOf countEngine (levelFitter 1) qs y → x = y := by
    rintro qs x y ⟨q1, e1, e2⟩ ⟨q2, g1, g2⟩
    obtain rfl := Except.ok.inj (e1.symm.trans g1)
    exact Except.ok.inj (e2.symm.trans g2)
  obtain ⟨x, hx, x1⟩ := h1
  obtain ⟨y, hy, y1⟩ := h2
  refine ⟨fun fit h h' => ?_, x, hx⟩
  obtain rfl := uniq _ _ _ h hx
  obtain rfl := uniq _ _ _ h' hy
  rw [x1] at y1
  norm_num at y1

/-- files made by `extract_dl1` -/
example : ∃ (files : List (Dl1Input Nat Unit)) (store : Store (SpeRow (DRow (Dict String (Cell Nat)))) (SpeObj Unit)), files.length = 2 ∧ (∀ d ∈ files, WithNumbers 2 "charge_cc" d) ∧
    List.Forall₂ (SameInFiles (levelFitter 2) "charge_cc" 1) files files ∧
    extractSpeFiles (processPixels countEngine) (fun _ => 1) ["errors", "values", "arrays"] "Level" levelFitter "charge_cc" (files.map fun d => (d.path, d.file)) = .ok store := by
  obtain ⟨d, hd, -, -⟩ := pulseRun_file
  have hfiles : ∀ x ∈ [d, d], WithNumbers 2 "charge_cc" x := by
    intro x hx
    simp only [List.mem_cons, List.not_mem_nil, or_false, or_self] at hx
    rw [hx]
    exact hd
  have hself : SameInFiles (levelFitter 2) "charge_cc" 1 d d := fun qs qs' h h' => by
    rw [chargesIn_unique _ _ _ _ _ _ h h']
    exact List.Perm.refl _
  obtain ⟨h1, -⟩ := C156_finishes countEngine (fun _ => 1) (fun _ _ => Nat.one_pos) ["errors", "values", "arrays"] (by decide) "Level" levelFitter "charge_cc" (by decide) (by decide)
    (fun _ => rfl) 2 (by decide) (by decide) [d, d] (by simp) hfiles ⟨_, rfl⟩
  obtain ⟨store, hs⟩ := h1.2 fun pixel _ qss hq => by
    cases hq with
    | cons _ hq => cases hq with
      | cons _ hq => cases hq; exact ⟨_, _, rfl, rfl⟩
  exact ⟨[d, d], store, rfl, hfiles, .cons hself (.cons hself .nil), hs⟩

end Verif.Props
