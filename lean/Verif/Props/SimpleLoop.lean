import Mathlib.Algebra.BigOperators.Group.List.Basic
import Mathlib.Tactic.NormNum
import Verif.Model.SimpleLoop
import Verif.Props.WaveformReader

/-!
# C190: the example that loops over events
-/

namespace Verif.Props

open Verif.Py Verif.Model

/-- a reader as the package has it -/
def IsTioReader (r : LoopReader) : Prop := r.names = tioReaderNames

/-- the line for an event: number, pixels, samples, time since the first event, and the mean of all samples -/
def lineOf (tack : Nat → ℚ) (wf : Nat → List (List ℚ)) (samples : Nat → Nat) (i : Nat) : LoopLine :=
  .event i (wf i).length (samples i) ((tack i - tack 0) / 1000000) ((wf i).flatten.sum / (wf i).flatten.length)

/-- C190: first the number of events of the first file, and `ERROR` exactly when the second file has another number. -/
theorem C190_header (r0 r1 : LoopReader) :
    loopHeader r0 r1 = .count r0.reader.nEvents :: if r0.reader.nEvents = r1.reader.nEvents then [] else [.mismatch] := by
  unfold loopHeader
  by_cases h : r0.reader.nEvents = r1.reader.nEvents <;> simp [h]

theorem simpleLoops_false (r0 r1 : LoopReader) (h : IsTioReader r0) (n : Nat) (hn : r0.reader.nEvents = n) (h0 : 0 < n) :
    simpleLoops r0 r1 = (.count n :: (if r0.reader.nEvents = r1.reader.nEvents then [] else [.mismatch]), some .attributeError) := by
  obtain ⟨m, rfl⟩ : ∃ m, n = m + 1 := ⟨n - 1, by omega⟩
  have hr : range 0 ((m + 1 : Nat) : Int) 1 = 0 :: (List.range m).map (fun i : Nat => ((i + 1 : Nat) : Int)) := by
    rw [range_zero_one, List.range_succ_eq_map]
    simp [Function.comp_def]
  have hg := getInt_of_mem r0.reader (m + 1) hn 0 (by omega) (by omega)
  have ha : readerAttr r0.names (r0.get 0) "current_tack" = .error .attributeError := by
    unfold readerAttr
    rw [if_neg]
    rw [show r0.names = tioReaderNames from h]
    decide
  have hl : indexLoop r0 0 (range 0 r0.reader.nEvents 1) = ([], some .attributeError) := by
    rw [hn, hr]
    simp [indexLoop, hg, loopBody, ha, bind, Except.bind]
  simp only [simpleLoops, hl, C190_header, List.append_nil]
  rw [hn]

theorem simpleLoops_empty (r0 r1 : LoopReader) (hn : r0.reader.nEvents ≤ 0) :
    simpleLoops r0 r1 = (.count r0.reader.nEvents :: (if r0.reader.nEvents = r1.reader.nEvents then [] else [.mismatch]), none) := by
  have hr : range 0 r0.reader.nEvents 1 = [] := by
    have : rangeLen 0 r0.reader.nEvents 1 = 0 := by
      unfold rangeLen
      simp
      omega
    simp [range, this]
  simp [simpleLoops, hr, indexLoop, iterLoop, C190_header]

/-- C190 as stated is false: with every reader of the package and every file with events, the program stops with `AttributeError` before the line of the first event. -/
theorem C190_false (r0 r1 : LoopReader) (h : IsTioReader r0) (n : Nat) (hn : r0.reader.nEvents = n) (h0 : 0 < n) :
    simpleProgram r0 r1 = (.count n :: (if r0.reader.nEvents = r1.reader.nEvents then [] else [.mismatch]), some .attributeError) := by
  rw [simpleProgram, simpleLoops_false r0 r1 h n hn h0]

/-- the part of C190 that holds with the readers of the package: a file without events gives the first lines only and no exception -/
theorem C190_partial (r0 r1 : LoopReader) (hn : r0.reader.nEvents ≤ 0) :
    simpleProgram r0 r1 = (.count r0.reader.nEvents :: (if r0.reader.nEvents = r1.reader.nEvents then [] else [.mismatch]), none) := by
  have hr : ∀ m : Int, m ≤ 0 → range 0 m 1 = [] := by
    intro m hm
    have : rangeLen 0 m 1 = 0 := by
      unfold rangeLen
      simp
      omega
    simp [range, this]
  rw [simpleProgram, simpleLoops_empty r0 r1 hn]
  simp [hr _ hn, hr (min r0.reader.nEvents r1.reader.nEvents) (by omega), bothLoop, zipLoop]

/-- one pass of a loop body with a reader that has both names -/
theorem loopBody_ok (r : LoopReader) (ht : "current_tack" ∈ r.names) (wf : List (List ℚ)) (w : List ℚ) (ws : List (List ℚ)) (hw : wf = w :: ws) (i : Int)
    (x start : ℚ) (b : Bool) :
    loopBody r i (.ok x) (.ok b) start wf =
      .ok (.event x wf.length w.length ((r.get i "current_tack" - (if b then r.get i "current_tack" else start)) / 1000000)
        (wf.flatten.sum / wf.flatten.length), if b then r.get i "current_tack" else start) := by
  subst hw
  simp [loopBody, readerAttr, ht, samplesOf, meanOfAll, bind, Except.bind, pure, Except.pure]

/-- the first loop over the events in `l`, when `tack0` is set or the first event comes first -/
theorem indexLoop_lines (r0 : LoopReader) (ht : "current_tack" ∈ r0.names) (n : Nat) (hn : r0.reader.nEvents = n)
    (first : Nat → List ℚ) (rest : Nat → List (List ℚ)) (hwf : ∀ i : Nat, i < n → r0.reader.getEvent i = first i :: rest i) :
    ∀ l : List Nat, (∀ i ∈ l, i < n) → ∀ start : ℚ, (start = r0.get 0 "current_tack" ∨ l.head? = some 0 ∨ l = []) →
      indexLoop r0 start (l.map fun i : Nat => (i : Int)) =
        (l.map (lineOf (fun i : Nat => r0.get i "current_tack") (fun i : Nat => first i :: rest i) (fun i => (first i).length)), none) := by
  intro l
  induction l with
  | nil => intros; rfl
  | cons i is ih =>
    intro hl start hs
    have hin : i < n := hl i (by simp)
    have hg := getInt_of_mem r0.reader n hn (i : Int) (by omega) (by omega)
    have hstart : (if ((i : Int) == 0) = true then r0.get i "current_tack" else start) = r0.get 0 "current_tack" := by
      by_cases h0 : i = 0
      · subst h0; simp
      · have : ((i : Int) == 0) = false := by simp [h0]
        rw [this]
        rcases hs with h | h | h
        · simpa using h
        · simp at h; exact absurd h h0
        · simp at h
    have hb := loopBody_ok r0 ht (r0.reader.getEvent i) (first i) (rest i) (hwf i hin) (i : Int) ((i : Int) : ℚ) start ((i : Int) == 0)
    rw [hstart] at hb
    have ih' := ih (fun j hj => hl j (by simp [hj])) (r0.get 0 "current_tack") (Or.inl rfl)
    simp only [List.map_cons, indexLoop, hg, hb, ih']
    simp [lineOf, hwf i hin]

/-- C190 for a reader that also has `current_tack` and `index`, with the index of the event handed out: both loops print one line for each event, in order, with the time since the first event, and
no exception. The number printed as the peak is the mean of all samples of all pixels. -/
theorem C190_lines (r0 r1 : LoopReader) (ht : "current_tack" ∈ r0.names) (hi : "index" ∈ r0.names) (n : Nat) (hn : r0.reader.nEvents = n)
    (hidx : ∀ i : Nat, i < n → r0.get i "index" = i) (first : Nat → List ℚ) (rest : Nat → List (List ℚ))
    (hwf : ∀ i : Nat, i < n → r0.reader.getEvent i = first i :: rest i) :
    let lines := (List.range n).map (lineOf (fun i : Nat => r0.get i "current_tack") (fun i : Nat => first i :: rest i) (fun i => (first i).length))
    simpleLoops r0 r1 = (.count n :: (if r0.reader.nEvents = r1.reader.nEvents then [] else [.mismatch]) ++ lines ++ lines, none) := by
  intro lines
  have key1 := indexLoop_lines r0 ht n hn first rest hwf
  have key2 : ∀ l : List Nat, (∀ i ∈ l, i < n) →
      iterLoop r0 (r0.get 0 "current_tack") (l.map fun i : Nat => (i : Int)) =
        (l.map (lineOf (fun i : Nat => r0.get i "current_tack") (fun i : Nat => first i :: rest i) (fun i => (first i).length)), none) := by
    intro l
    induction l with
    | nil => intros; rfl
    | cons i is ih =>
      intro hl
      have hin : i < n := hl i (by simp)
      have hx : readerAttr r0.names (r0.get i) "index" = .ok (i : ℚ) := by simp [readerAttr, hi, hidx i hin]
      have hstart : (if ((i : ℚ) == 0) = true then r0.get i "current_tack" else r0.get 0 "current_tack") = r0.get 0 "current_tack" := by
        by_cases h0 : i = 0
        · subst h0; simp
        · simp [h0]
      have hb := loopBody_ok r0 ht (r0.reader.getEvent i) (first i) (rest i) (hwf i hin) (i : Int) (i : ℚ) (r0.get 0 "current_tack") ((i : ℚ) == 0)
      rw [hstart] at hb
      have ih' := ih (fun j hj => hl j (by simp [hj]))
      simp only [List.map_cons, iterLoop, hx, Except.map, hb, ih']
      simp [lineOf, hwf i hin]
  have hr : range 0 r0.reader.nEvents 1 = (List.range n).map (fun i : Nat => (i : Int)) := by rw [hn, range_zero_one]
  have h1 := key1 (List.range n) (fun i hi => List.mem_range.1 hi) 0 (by
    rcases n with _ | m
    · simp
    · right; left; simp [List.range_succ_eq_map])
  have h2 := key2 (List.range n) (fun i hi => List.mem_range.1 hi)
  simp only [simpleLoops, hr, h1, h2, C190_header]
  rw [hn]

/-- C190: with a reader that has `current_tack` but not `index`, the first loop prints its lines and the second stops with `AttributeError` at the first event. -/
theorem C190_no_index (r0 r1 : LoopReader) (ht : "current_tack" ∈ r0.names) (hi : "index" ∉ r0.names) (n : Nat) (hn : r0.reader.nEvents = n) (h0 : 0 < n)
    (first : Nat → List ℚ) (rest : Nat → List (List ℚ)) (hwf : ∀ i : Nat, i < n → r0.reader.getEvent i = first i :: rest i) :
    let lines := (List.range n).map (lineOf (fun i : Nat => r0.get i "current_tack") (fun i : Nat => first i :: rest i) (fun i => (first i).length))
    simpleLoops r0 r1 = (.count n :: (if r0.reader.nEvents = r1.reader.nEvents then [] else [.mismatch]) ++ lines, some .attributeError) := by
  intro lines
  have hr : range 0 r0.reader.nEvents 1 = (List.range n).map (fun i : Nat => (i : Int)) := by rw [hn, range_zero_one]
  have h1 := indexLoop_lines r0 ht n hn first rest hwf (List.range n) (fun i hi => List.mem_range.1 hi) 0 (by
    rcases n with _ | m
    · simp
    · right; left; simp [List.range_succ_eq_map])
  have h2 : iterLoop r0 (r0.get 0 "current_tack") ((List.range n).map (fun i : Nat => (i : Int))) = ([], some .attributeError) := by
    obtain ⟨m, rfl⟩ : ∃ m, n = m + 1 := ⟨n - 1, by omega⟩
    simp [List.range_succ_eq_map, iterLoop, loopBody, readerAttr, ht, hi, Except.map, bind, Except.bind]
  simp only [simpleLoops, hr, h1, h2, C190_header]
  rw [hn]
  simp [lines]

/-- the two lines of an event in the loop over the indices of both files -/
def bothLines (tack tack' : Nat → ℚ) (wf wf' : Nat → List (List ℚ)) (samples samples' : Nat → Nat) (i : Nat) : List LoopLine :=
  [.number i,
   .event i (wf i).length (samples i) (if i = 0 then 0 else (tack i - tack' 0) / 1000000) ((wf i).flatten.sum / (wf i).flatten.length),
   .event i (wf' i).length (samples' i) ((tack' i - tack' 0) / 1000000) ((wf' i).flatten.sum / (wf' i).flatten.length)]

/-- C190 for two readers that have both names: the loop over the indices of both files prints for each event its number and a line for each file. After the first event the times
of both files count from the first event of the second file, and both lines are labelled with the number of the event instead of the file. -/
theorem C190_both (r0 r1 : LoopReader) (ht : "current_tack" ∈ r0.names) (hi : "index" ∈ r0.names) (ht' : "current_tack" ∈ r1.names) (hi' : "index" ∈ r1.names)
    (n : Nat) (hn : r0.reader.nEvents = n) (hn' : r1.reader.nEvents = n)
    (hidx : ∀ i : Nat, i < n → r0.get i "index" = i) (hidx' : ∀ i : Nat, i < n → r1.get i "index" = i)
    (first first' : Nat → List ℚ) (rest rest' : Nat → List (List ℚ))
    (hwf : ∀ i : Nat, i < n → r0.reader.getEvent i = first i :: rest i) (hwf' : ∀ i : Nat, i < n → r1.reader.getEvent i = first' i :: rest' i) (start : ℚ) :
    (bothLoop [r0, r1] start (range 0 n 1)).1 = (List.range n).flatMap (bothLines (fun i : Nat => r0.get i "current_tack") (fun i : Nat => r1.get i "current_tack")
      (fun i => first i :: rest i) (fun i => first' i :: rest' i) (fun i => (first i).length) (fun i => (first' i).length)) ∧
    (bothLoop [r0, r1] start (range 0 n 1)).2 = .ok (if n = 0 then start else r1.get 0 "current_tack") := by
  have step : ∀ i : Nat, i < n → ∀ start : ℚ, (i ≠ 0 → start = r1.get 0 "current_tack") →
      readersLoop i start [r0, r1] = ((bothLines (fun i : Nat => r0.get i "current_tack") (fun i : Nat => r1.get i "current_tack")
      (fun i => first i :: rest i) (fun i => first' i :: rest' i) (fun i => (first i).length) (fun i => (first' i).length) i).tail, .ok (r1.get 0 "current_tack")) := by
    intro i hin start hs
    have hg := getInt_of_mem r0.reader n hn (i : Int) (by omega) (by omega)
    have hg' := getInt_of_mem r1.reader n hn' (i : Int) (by omega) (by omega)
    have hx : readerAttr r0.names (r0.get i) "index" = .ok (i : ℚ) := by simp [readerAttr, hi, hidx i hin]
    have hx' : readerAttr r1.names (r1.get i) "index" = .ok (i : ℚ) := by simp [readerAttr, hi', hidx' i hin]
    have hb := fun start b => loopBody_ok r0 ht (r0.reader.getEvent i) (first i) (rest i) (hwf i hin) (i : Int) (i : ℚ) start b
    have hb' := fun start b => loopBody_ok r1 ht' (r1.reader.getEvent i) (first' i) (rest' i) (hwf' i hin) (i : Int) (i : ℚ) start b
    simp only [readersLoop, hg, hg', hx, hx', hb, hb', bothLines, List.tail_cons]
    by_cases h0 : i = 0
    · subst h0
      have e := hwf 0 hin
      have e' := hwf' 0 hin
      simp only [Nat.cast_zero] at e e'
      simp [e, e']
    · rw [hs h0]
      simp [h0, hwf i hin, hwf' i hin]
  have key : ∀ l : List Nat, (∀ i ∈ l, i < n) → ∀ start : ℚ, (start = r1.get 0 "current_tack" ∨ l.head? = some 0 ∨ l = []) →
      bothLoop [r0, r1] start (l.map fun i : Nat => (i : Int)) = (l.flatMap (bothLines (fun i : Nat => r0.get i "current_tack") (fun i : Nat => r1.get i "current_tack")
      (fun i => first i :: rest i) (fun i => first' i :: rest' i) (fun i => (first i).length) (fun i => (first' i).length)), .ok (if l = [] then start else r1.get 0 "current_tack")) := by
    intro l
    induction l with
    | nil => intros; rfl
    | cons i is ih =>
      intro hl start hs
      have h1 := step i (hl i (by simp)) start (fun h0 => by
        rcases hs with h | h | h
        · exact h
        · simp at h; exact absurd h h0
        · simp at h)
      have ih' := ih (fun j hj => hl j (by simp [hj])) (r1.get 0 "current_tack") (Or.inl rfl)
      simp only [List.map_cons, bothLoop, h1, ih']
      simp [bothLines]
  have h := key (List.range n) (fun i hi => List.mem_range.1 hi) start (by
    rcases n with _ | m
    · simp
    · right; left; simp [List.range_succ_eq_map])
  rw [range_zero_one, h]
  simp

/-- the three lines of an event in the loop over both readers together -/
def zipLines (tack : Nat → ℚ) (wf wf' : Nat → List (List ℚ)) (samples samples' : Nat → Nat) (i : Nat) : List LoopLine :=
  [.number i,
   .event 0 (wf i).length (samples i) ((tack i - tack 0) / 1000000) ((wf i).flatten.sum / (wf i).flatten.length),
   .event 1 (wf' i).length (samples' i) ((tack i - tack 0) / 1000000) ((wf' i).flatten.sum / (wf' i).flatten.length)]

theorem zipLoop_lines (r0 r1 : LoopReader) (ht : "current_tack" ∈ r0.names) (hi : "index" ∈ r0.names) (n : Nat)
    (hidx : ∀ i : Nat, i < n → r0.get i "index" = i) (first first' : Nat → List ℚ) (rest rest' : Nat → List (List ℚ))
    (hwf : ∀ i : Nat, i < n → r0.reader.getEvent i = first i :: rest i) (hwf' : ∀ i : Nat, i < n → r1.reader.getEvent i = first' i :: rest' i) :
    ∀ l : List Nat, (∀ i ∈ l, i < n) → ∀ start : ℚ, (start = r0.get 0 "current_tack" ∨ l.head? = some 0 ∨ l = []) →
      zipLoop r0 r1 start (l.map fun i : Nat => (i : Int)) = (l.flatMap (zipLines (fun i : Nat => r0.get i "current_tack")
        (fun i => first i :: rest i) (fun i => first' i :: rest' i) (fun i => (first i).length) (fun i => (first' i).length)), none) := by
  intro l
  induction l with
  | nil => intros; rfl
  | cons i is ih =>
    intro hl start hs
    have hin : i < n := hl i (by simp)
    have hx : readerAttr r0.names (r0.get i) "index" = .ok (i : ℚ) := by simp [readerAttr, hi, hidx i hin]
    have hy : readerAttr r0.names (r0.get i) "current_tack" = .ok (r0.get i "current_tack") := by simp [readerAttr, ht]
    have hstart : (if (i : ℚ) = 0 then r0.get i "current_tack" else start) = r0.get 0 "current_tack" := by
      by_cases h0 : i = 0
      · subst h0; simp
      · rcases hs with h | h | h
        · simp [h0, h]
        · simp at h; exact absurd h h0
        · simp at h
    have ih' := ih (fun j hj => hl j (by simp [hj])) (r0.get 0 "current_tack") (Or.inl rfl)
    simp only [List.map_cons, zipLoop, hx, hy, hwf i hin, hwf' i hin, samplesOf, hstart, ih']
    simp [zipLines, meanOfAll]

/-- C190 for two files with the same number of events and readers that have both names: the whole program prints the number of events, the lines of the first file twice, the lines of both files
by index, and the lines of both files together, and raises nothing. -/
theorem C190_program (r0 r1 : LoopReader) (ht : "current_tack" ∈ r0.names) (hi : "index" ∈ r0.names) (ht' : "current_tack" ∈ r1.names) (hi' : "index" ∈ r1.names)
    (n : Nat) (hn : r0.reader.nEvents = n) (hn' : r1.reader.nEvents = n)
    (hidx : ∀ i : Nat, i < n → r0.get i "index" = i) (hidx' : ∀ i : Nat, i < n → r1.get i "index" = i)
    (first first' : Nat → List ℚ) (rest rest' : Nat → List (List ℚ))
    (hwf : ∀ i : Nat, i < n → r0.reader.getEvent i = first i :: rest i) (hwf' : ∀ i : Nat, i < n → r1.reader.getEvent i = first' i :: rest' i) :
    let tack := fun i : Nat => r0.get i "current_tack"
    let tack' := fun i : Nat => r1.get i "current_tack"
    let wf := fun i => first i :: rest i
    let wf' := fun i => first' i :: rest' i
    let samples := fun i => (first i).length
    let samples' := fun i => (first' i).length
    simpleProgram r0 r1 = (.count n :: (List.range n).map (lineOf tack wf samples) ++ (List.range n).map (lineOf tack wf samples) ++
      (List.range n).flatMap (bothLines tack tack' wf wf' samples samples') ++ (List.range n).flatMap (zipLines tack wf wf' samples samples'), none) := by
  intro tack tack' wf wf' samples samples'
  have h1 := C190_lines r0 r1 ht hi n hn hidx first rest hwf
  obtain ⟨h2, h3⟩ := C190_both r0 r1 ht hi ht' hi' n hn hn' hidx hidx' first first' rest rest' hwf hwf' (r0.get 0 "current_tack")
  have h4 := zipLoop_lines r0 r1 ht hi n hidx first first' rest rest' hwf hwf' (List.range n) (fun i hi => List.mem_range.1 hi)
    (if n = 0 then r0.get 0 "current_tack" else r1.get 0 "current_tack") (by
      rcases n with _ | m
      · simp
      · right; left; simp [List.range_succ_eq_map])
  simp only at h1
  rw [simpleProgram, h1]
  simp only [hn, hn', min_self]
  rw [show bothLoop [r0, r1] (r0.get 0 "current_tack") (range 0 n 1) = (_, _) from Prod.ext h2 h3]
  simp only [range_zero_one, h4]
  simp [tack, tack', wf, wf', samples, samples', List.flatMap_def]

/-- the number called the peak is not the peak: it stays the same when the samples of the event are put in another order or moved to other pixels -/
theorem C190_peak_false (wf wf' : List (List ℚ)) (h : wf.flatten.Perm wf'.flatten) : meanOfAll wf = meanOfAll wf' := by
  unfold meanOfAll
  rw [h.sum_eq, h.length_eq]

/-- a reader of the package with two events -/
def loopExample (names : List String) : LoopReader where
  reader := { nEvents := 2, getEvent := fun i => if i = 0 then [[0, 10, 2], [0, 8, 4]] else [[1, 1, 1], [1, 1, 4]] }
  names := names
  get := fun i s => if s = "index" then i else 5000000 + i * 3000000

/-- non-vacuity: with the reader of the package nothing is printed after the number of events -/
example : simpleProgram (loopExample tioReaderNames) (loopExample tioReaderNames) = ([.count 2], some .attributeError) := by
  have := C190_false (loopExample tioReaderNames) (loopExample tioReaderNames) rfl 2 rfl (by omega)
  simpa using this

/-- non-vacuity: with the two names, the peaks 10 and 4 of the pixels in these events come out as 4 and 3/2 -/
example : simpleLoops (loopExample ("current_tack" :: "index" :: tioReaderNames)) (loopExample tioReaderNames) =
    ([.count 2, .event 0 2 3 0 4, .event 1 2 3 3 (3 / 2), .event 0 2 3 0 4, .event 1 2 3 3 (3 / 2)], none) := by
  have := C190_lines (loopExample ("current_tack" :: "index" :: tioReaderNames)) (loopExample tioReaderNames) (by decide) (by decide) 2 rfl
    (by intro i _; simp [loopExample]) (fun i => if i = 0 then [0, 10, 2] else [1, 1, 1]) (fun i => if i = 0 then [[0, 8, 4]] else [[1, 1, 4]])
    (by intro i hi; rcases i with _ | _ | i <;> first | omega | simp [loopExample])
  rw [this]
  simp [loopExample, lineOf, List.range_succ]
  norm_num

/-- non-vacuity: with `current_tack` alone -/
example : simpleLoops (loopExample ("current_tack" :: tioReaderNames)) (loopExample tioReaderNames) =
    ([.count 2, .event 0 2 3 0 4, .event 1 2 3 3 (3 / 2)], some .attributeError) := by
  have := C190_no_index (loopExample ("current_tack" :: tioReaderNames)) (loopExample tioReaderNames) (by decide) (by decide) 2 rfl (by omega)
    (fun i => if i = 0 then [0, 10, 2] else [1, 1, 1]) (fun i => if i = 0 then [[0, 8, 4]] else [[1, 1, 4]])
    (by intro i hi; rcases i with _ | _ | i <;> first | omega | simp [loopExample])
  rw [this]
  simp [loopExample, lineOf, List.range_succ]
  norm_num

/-- non-vacuity: another number of events, none in the first file -/
example : simpleProgram { loopExample tioReaderNames with reader := { nEvents := 0, getEvent := fun _ => [] } } (loopExample tioReaderNames) =
    ([.count 0, .mismatch], none) := by
  rw [C190_partial _ _ (by simp)]
  simp [loopExample]

/-- non-vacuity: a second file whose clock is one second behind; the time of the second event of the first file comes out as 1003 ms instead of 3 ms -/
example : (bothLoop [loopExample ["current_tack", "index"],
      { loopExample ["current_tack", "index"] with get := fun i s => if s = "index" then i else i * 3000000 - 995000000 }] 0 (range 0 (2 : Nat) 1)).1 =
    [.number 0, .event 0 2 3 0 4, .event 0 2 3 0 4, .number 1, .event 1 2 3 1003 (3 / 2), .event 1 2 3 3 (3 / 2)] := by
  rw [(C190_both (loopExample ["current_tack", "index"]) { loopExample ["current_tack", "index"] with get := fun i s => if s = "index" then i else i * 3000000 - 995000000 }
    (by decide) (by decide) (by decide) (by decide) 2 rfl rfl (by intro i _; simp [loopExample]) (by intro i _; simp)
    (fun i => if i = 0 then [0, 10, 2] else [1, 1, 1]) (fun i => if i = 0 then [0, 10, 2] else [1, 1, 1])
    (fun i => if i = 0 then [[0, 8, 4]] else [[1, 1, 4]]) (fun i => if i = 0 then [[0, 8, 4]] else [[1, 1, 4]])
    (by intro i hi; rcases i with _ | _ | i <;> first | omega | simp [loopExample]) (by intro i hi; rcases i with _ | _ | i <;> first | omega | simp [loopExample]) 0).1]
  simp [loopExample, bothLines, List.range_succ]
  norm_num

/-- non-vacuity: the whole program for two such files -/
example : ∃ lines, simpleProgram (loopExample ["current_tack", "index"]) (loopExample ["current_tack", "index"]) = (lines, none) ∧ lines.length = 17 ∧
    lines.getLast? = some (.event 1 2 3 3 (3 / 2)) := by
  refine ⟨_, C190_program (loopExample ["current_tack", "index"]) (loopExample ["current_tack", "index"])
    (by decide) (by decide) (by decide) (by decide) 2 rfl rfl (by intro i _; simp [loopExample]) (by intro i _; simp [loopExample])
    (fun i => if i = 0 then [0, 10, 2] else [1, 1, 1]) (fun i => if i = 0 then [0, 10, 2] else [1, 1, 1])
    (fun i => if i = 0 then [[0, 8, 4]] else [[1, 1, 4]]) (fun i => if i = 0 then [[0, 8, 4]] else [[1, 1, 4]])
    (by intro i hi; rcases i with _ | _ | i <;> first | omega | simp [loopExample]) (by intro i hi; rcases i with _ | _ | i <;> first | omega | simp [loopExample]), ?_, ?_⟩
  · simp [List.range_succ, bothLines, zipLines]
  · simp [loopExample, List.range_succ, bothLines, zipLines]
    norm_num

/-- non-vacuity: two events with the same samples in other places -/
example : meanOfAll [[0, 10, 2], [0, 8, 4]] = meanOfAll [[10, 0, 2], [4, 8, 0]] := by
  apply C190_peak_false
  decide

end Verif.Props
