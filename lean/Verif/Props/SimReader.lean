import Verif.Model.SimReader
import Verif.Props.Camera

/-! # C127: files of simulated arrays -/

namespace Verif.Props

open Verif.Py Verif.Model

variable {α β : Type}

/-- the event has waveforms and true charges of `n` pixels of the telescope -/
def SeenBy (e : ArrayEvent α β) (tel n : Nat) (w : List α) (m : List β) : Prop := e.waveform tel = some w ∧ e.image tel = some m ∧ w.length = n ∧ m.length = n

/-- C127: a file can be opened when it has an event with data of a telescope whose pixels are inside the camera; telescope, pixels and samples are those of the first telescope
of the first event. -/
theorem C127_opens (nRows nCols : Nat) (sim cam : List (Nat × Nat)) (hsim : ∀ p ∈ sim, p.1 < nRows ∧ p.2 < nCols) (hcam : ∀ p ∈ cam, p.1 < nRows ∧ p.2 < nCols)
    (position : Nat → Except Err (List Int × List Int)) (e : ArrayEvent α β) (es : List (ArrayEvent α β)) (tel : Nat) (tels : List Nat) (n : Nat)
    (ht : e.withData = tel :: tels) (hs : e.shape tel = some (sim.length, n))
    (hp : position tel = .ok (sim.map fun p => (p.1 : Int), sim.map fun p => (p.2 : Int))) :
    ∃ r, openSim nRows nCols (cam.map fun p => (p.1 : Int)) (cam.map fun p => (p.2 : Int)) position (e :: es) = .ok r ∧
      r.tel = tel ∧ r.nPixels = sim.length ∧ r.nSamples = n ∧ 64 * r.nModules ≤ sim.length ∧ sim.length < 64 * (r.nModules + 1) ∧
      simLength r = es.length + 1 := by
  obtain ⟨order, ho⟩ : ∃ order, pixelOrder nRows nCols (sim.map fun p => (p.1 : Int)) (sim.map fun p => (p.2 : Int)) (cam.map fun p => (p.1 : Int))
      (cam.map fun p => (p.2 : Int)) = .ok order := ⟨_, pixelOrder_spec nRows nCols sim cam hsim hcam⟩
  refine ⟨{ tel, nPixels := sim.length, nSamples := n, nModules := sim.length / 64, order, events := e :: es }, ?_, rfl, rfl, rfl, ?_, ?_, rfl⟩
  · unfold openSim
    simp only [ht, hs, hp, List.length_map, ne_eq, not_true_eq_false, if_false]
    rw [ho]
  · simp only; omega
  · simp only; omega

/-- C127: no events, or no telescope with data in the first one: `IndexError` -/
theorem C127_empty (nRows nCols : Nat) (mapRow mapCol : List Int) (position : Nat → Except Err (List Int × List Int)) :
    openSim (α := α) (β := β) nRows nCols mapRow mapCol position [] = .error .indexError ∧
    ∀ (e : ArrayEvent α β) es, e.withData = [] → openSim nRows nCols mapRow mapCol position (e :: es) = .error .indexError := by
  refine ⟨rfl, fun e es h => ?_⟩
  unfold openSim
  simp only [h]

/-- C127: the other failures, in the order they are met: no waveforms of the telescope in the first event, positions that cannot be found, another number of positions than
pixels, positions outside the camera -/
theorem C127_errors (nRows nCols : Nat) (mapRow mapCol : List Int) (position : Nat → Except Err (List Int × List Int)) (e : ArrayEvent α β) (es : List (ArrayEvent α β))
    (tel : Nat) (tels : List Nat) (ht : e.withData = tel :: tels) :
    (e.shape tel = none → openSim nRows nCols mapRow mapCol position (e :: es) = .error .attributeError) ∧
    ∀ nPixels nSamples, e.shape tel = some (nPixels, nSamples) →
      (∀ x, position tel = .error x → openSim nRows nCols mapRow mapCol position (e :: es) = .error x) ∧
      ∀ row col, position tel = .ok (row, col) →
        (row.length ≠ nPixels → openSim nRows nCols mapRow mapCol position (e :: es) = .error .valueError) ∧
        (row.length = nPixels → ∀ x, pixelOrder nRows nCols row col mapRow mapCol = .error x → openSim nRows nCols mapRow mapCol position (e :: es) = .error x) := by
  refine ⟨fun h => ?_, fun nPixels nSamples h => ⟨fun x hx => ?_, fun row col hp => ⟨fun hl => ?_, fun hl x hx => ?_⟩⟩⟩
  · simp only [openSim, ht, h]
  · simp only [openSim, ht, h, hx]
  · simp only [openSim, ht, h, hp]
    rw [if_pos hl]
  · simp only [openSim, ht, h, hp, hx]
    rw [if_neg (by simp [hl])]

/-- a telescope with two pixels of which the description knows one -/
example : openSim (α := Nat) (β := Nat) 1 2 [0, 0] [0, 1] (fun _ => .ok ([0], [1])) [⟨[1], fun _ => some (2, 3), fun _ => none, fun _ => none⟩] = .error .valueError :=
  ((C127_errors 1 2 [0, 0] [0, 1] _ _ [] 1 [] rfl).2 2 3 rfl).2 [0] [1] rfl |>.1 (by decide)

/-- C127: an opened reader has a position inside the camera for each of its pixels -/
theorem C127_positions (nRows nCols : Nat) (mapRow mapCol : List Int) (position : Nat → Except Err (List Int × List Int)) (events : List (ArrayEvent α β)) (r : SimReader α β)
    (h : openSim nRows nCols mapRow mapCol position events = .ok r) :
    r.events = events ∧ ∃ row col, position r.tel = .ok (row, col) ∧ row.length = r.nPixels ∧ pixelOrder nRows nCols row col mapRow mapCol = .ok r.order := by
  unfold openSim at h
  split at h
  · cases h
  split at h
  · cases h
  split at h
  · cases h
  split at h
  · cases h
  rename_i hp
  split at h
  · cases h
  rename_i hl
  split at h
  · cases h
  rename_i ho
  cases h
  exact ⟨rfl, _, _, hp, not_not.1 hl, ho⟩

/-- what the reader hands out of an event: sample and true charge of camera pixel `i` are those of the simulated pixel at its place -/
theorem simWaveform_seen (nRows nCols : Nat) (sim cam : List (Nat × Nat)) (hsim : ∀ p ∈ sim, p.1 < nRows ∧ p.2 < nCols) (hnd : sim.Nodup) (hocc : ∀ p ∈ cam, p ∈ sim)
    (r : SimReader α β) (ho : pixelOrder nRows nCols (sim.map fun p => (p.1 : Int)) (sim.map fun p => (p.2 : Int)) (cam.map fun p => (p.1 : Int))
        (cam.map fun p => (p.2 : Int)) = .ok r.order) (e : ArrayEvent α β) (w : List α) (m : List β) (hseen : SeenBy e r.tel sim.length w m) :
    ∃ samples mcTrue, simWaveform r e = .ok (samples, mcTrue) ∧ samples.length = cam.length ∧ mcTrue.length = cam.length ∧
      ∀ (i k : Nat) (p : Nat × Nat), cam[i]? = some p → sim[k]? = some p → samples[i]? = w[k]? ∧ mcTrue[i]? = m[k]? := by
  obtain ⟨h1, h2, h3, h4⟩ := hseen
  obtain ⟨order, samples, mcTrue, hord, hb, hl1, hl2, hval⟩ := C08_pixel_order nRows nCols sim cam hsim hnd hocc w m h3 h4
  obtain rfl : order = r.order := by rw [ho] at hord; exact (Except.ok.inj hord).symm
  refine ⟨samples, mcTrue, ?_, hl1, hl2, hval⟩
  unfold buildWaveform at hb
  unfold simWaveform
  rw [h1, h2]
  exact hb

/-- C127: a loop over the file hands out the waveforms up to the first event the telescope did not record, where it raises `TypeError`. -/
theorem C127_until_unseen (r : SimReader α β) (seen : List (ArrayEvent α β)) (ws : List (List α × List β)) (h : seen.map (simWaveform r) = ws.map .ok)
    (rest : List (ArrayEvent α β)) :
    (rest = [] → simIterate r (seen ++ rest) = (ws, none)) ∧
    ∀ e es, rest = e :: es → e.waveform r.tel = none → simIterate r (seen ++ rest) = (ws, some .typeError) := by
  induction seen generalizing ws with
  | nil =>
    obtain rfl : ws = [] := by cases ws with | nil => rfl | cons _ _ => cases h
    refine ⟨by rintro rfl; rfl, ?_⟩
    rintro e es rfl hn
    simp [simIterate, simWaveform, hn]
  | cons a seen ih =>
    cases ws with
    | nil => cases h
    | cons w ws =>
      rw [List.map_cons, List.map_cons] at h
      obtain ⟨h1, h2⟩ := List.cons.inj h
      obtain ⟨i1, i2⟩ := ih ws h2
      refine ⟨fun hr => ?_, fun e es hr hn => ?_⟩ <;> rw [List.cons_append] <;> unfold simIterate <;> rw [h1]
      · simp only [i1 hr]
      · simp only [i2 e es hr hn]

/-- C127 (missing: events the telescope did not record): if it recorded all of them, the loop hands out one waveform per event, in order, with the data of this telescope at the
places of the camera. -/
theorem C127_partial (nRows nCols : Nat) (sim cam : List (Nat × Nat)) (hsim : ∀ p ∈ sim, p.1 < nRows ∧ p.2 < nCols) (hnd : sim.Nodup) (hocc : ∀ p ∈ cam, p ∈ sim)
    (position : Nat → Except Err (List Int × List Int)) (events : List (ArrayEvent α β)) (r : SimReader α β)
    (hp : position r.tel = .ok (sim.map fun p => (p.1 : Int), sim.map fun p => (p.2 : Int)))
    (h : openSim nRows nCols (cam.map fun p => (p.1 : Int)) (cam.map fun p => (p.2 : Int)) position events = .ok r)
    (hall : ∀ e ∈ events, ∃ w m, SeenBy e r.tel sim.length w m) :
    ∃ ws, simIterate r r.events = (ws, none) ∧ ws.length = simLength r ∧ ∀ (j : Nat) e, events[j]? = some e →
      ∃ w m samples mcTrue, SeenBy e r.tel sim.length w m ∧ ws[j]? = some (samples, mcTrue) ∧ samples.length = cam.length ∧ mcTrue.length = cam.length ∧
        ∀ (i k : Nat) (p : Nat × Nat), cam[i]? = some p → sim[k]? = some p → samples[i]? = w[k]? ∧ mcTrue[i]? = m[k]? := by
  obtain ⟨rfl, row, col, h1, -, h3⟩ := C127_positions _ _ _ _ _ _ _ h
  rw [hp] at h1
  obtain ⟨rfl, rfl⟩ := Prod.mk.inj (Except.ok.inj h1)
  have key : ∀ es : List (ArrayEvent α β), (∀ e ∈ es, ∃ w m, SeenBy e r.tel sim.length w m) → ∃ ws, simIterate r es = (ws, none) ∧ ws.length = es.length ∧
      ∀ (j : Nat) e, es[j]? = some e → ∃ w m samples mcTrue, SeenBy e r.tel sim.length w m ∧ ws[j]? = some (samples, mcTrue) ∧ samples.length = cam.length ∧
        mcTrue.length = cam.length ∧ ∀ (i k : Nat) (p : Nat × Nat), cam[i]? = some p → sim[k]? = some p → samples[i]? = w[k]? ∧ mcTrue[i]? = m[k]? := by
    intro es
    induction es with
    | nil => intro _; exact ⟨[], rfl, rfl, by intro j e he; simp at he⟩
    | cons e es ih =>
      intro hes
      obtain ⟨w, m, hs⟩ := hes e (by simp)
      obtain ⟨samples, mcTrue, g1, g2, g3, g4⟩ := simWaveform_seen nRows nCols sim cam hsim hnd hocc r h3 e w m hs
      obtain ⟨ws, i1, i2, i3⟩ := ih fun e he => hes e (List.mem_cons_of_mem _ he)
      refine ⟨(samples, mcTrue) :: ws, ?_, by simp [i2], ?_⟩
      · unfold simIterate; rw [g1]; simp only [i1]
      · intro j e' hj
        cases j with
        | zero =>
          simp only [List.getElem?_cons_zero, Option.some.injEq] at hj
          subst hj
          exact ⟨w, m, samples, mcTrue, hs, by simp, g2, g3, g4⟩
        | succ j => simpa using i3 j e' (by simpa using hj)
  exact key _ hall

/-- C127: for exactly the files all of whose events the telescope recorded the loop reaches the end; otherwise it ends with `TypeError`. -/
theorem C127_exactly_partial (nRows nCols : Nat) (sim cam : List (Nat × Nat)) (hsim : ∀ p ∈ sim, p.1 < nRows ∧ p.2 < nCols) (hnd : sim.Nodup) (hocc : ∀ p ∈ cam, p ∈ sim)
    (position : Nat → Except Err (List Int × List Int)) (events : List (ArrayEvent α β)) (r : SimReader α β)
    (hp : position r.tel = .ok (sim.map fun p => (p.1 : Int), sim.map fun p => (p.2 : Int)))
    (h : openSim nRows nCols (cam.map fun p => (p.1 : Int)) (cam.map fun p => (p.2 : Int)) position events = .ok r)
    (hdata : ∀ e ∈ events, e.waveform r.tel = none ∨ ∃ w m, SeenBy e r.tel sim.length w m) :
    ((simIterate r r.events).2 = none ↔ ∀ e ∈ events, e.waveform r.tel ≠ none) ∧
    ((simIterate r r.events).2 ≠ none → (simIterate r r.events).2 = some .typeError) ∧
    ∀ pre e post, events = pre ++ e :: post → (∀ a ∈ pre, a.waveform r.tel ≠ none) → e.waveform r.tel = none → (simIterate r r.events).1.length = pre.length := by
  obtain ⟨rfl, row, col, h1, -, h3⟩ := C127_positions _ _ _ _ _ _ _ h
  rw [hp] at h1
  obtain ⟨rfl, rfl⟩ := Prod.mk.inj (Except.ok.inj h1)
  have key : ∀ es : List (ArrayEvent α β), (∀ e ∈ es, e.waveform r.tel = none ∨ ∃ w m, SeenBy e r.tel sim.length w m) →
      ((simIterate r es).2 = none ↔ ∀ e ∈ es, e.waveform r.tel ≠ none) ∧ ((simIterate r es).2 ≠ none → (simIterate r es).2 = some .typeError) ∧
      ∀ pre e post, es = pre ++ e :: post → (∀ a ∈ pre, a.waveform r.tel ≠ none) → e.waveform r.tel = none → (simIterate r es).1.length = pre.length := by
    intro es
    induction es with
    | nil => intro _; exact ⟨by simp [simIterate], by simp [simIterate], by intro pre e post hs; simp at hs⟩
    | cons a es ih =>
      intro hes
      obtain ⟨i1, i2, i3⟩ := ih fun e he => hes e (List.mem_cons_of_mem _ he)
      rcases hes a (by simp) with hn | ⟨w, m, hs⟩
      · have hw : simIterate r (a :: es) = ([], some .typeError) := by simp [simIterate, simWaveform, hn]
        rw [hw]
        refine ⟨by simp [hn], by simp, ?_⟩
        intro pre e post hsplit hpre _
        cases pre with
        | nil => rfl
        | cons b pre =>
          obtain ⟨rfl, -⟩ := List.cons.inj hsplit
          exact absurd hn (hpre _ (by simp))
      · obtain ⟨samples, mcTrue, g1, -, -, -⟩ := simWaveform_seen nRows nCols sim cam hsim hnd hocc r h3 a w m hs
        have hw : simIterate r (a :: es) = ((samples, mcTrue) :: (simIterate r es).1, (simIterate r es).2) := by
          conv_lhs => unfold simIterate
          rw [g1]
        have ha : a.waveform r.tel ≠ none := by rw [hs.1]; simp
        rw [hw]
        refine ⟨by simp [i1, ha], i2, ?_⟩
        intro pre e post hsplit hpre he
        cases pre with
        | nil =>
          obtain ⟨rfl, -⟩ := List.cons.inj hsplit
          exact absurd he ha
        | cons b pre =>
          obtain ⟨rfl, hsplit'⟩ := List.cons.inj hsplit
          simp [i3 pre e post hsplit' (fun x hx => hpre x (List.mem_cons_of_mem _ hx)) he]
  exact key _ hdata

/-- a telescope of two pixels; each telescope may have recorded the event or not -/
def simTwoPixels (tels : List Nat) (w : List Nat) : ArrayEvent Nat Nat :=
  ⟨tels, fun t => if t ∈ tels then some (2, 1) else none, fun t => if t ∈ tels then some w else none, fun t => if t ∈ tels then some w else none⟩

/-- C127 is false: a file whose second event was recorded by another telescope alone has two events, a loop over it fails after the first. -/
theorem C127_false : ∃ (events : List (ArrayEvent Nat Nat)) (r : SimReader Nat Nat),
    openSim 1 2 [0, 0] [0, 1] (fun _ => .ok ([0, 0], [1, 0])) events = .ok r ∧ simLength r = 2 ∧ (∀ e ∈ events, e.withData ≠ []) ∧
    simIterate r r.events = ([([20, 10], [20, 10])], some .typeError) :=
  ⟨[simTwoPixels [1] [10, 20], simTwoPixels [2] [30, 40]], _, rfl, rfl, by decide, by decide⟩

/-- three events of one telescope, the pixels of the simulation in the other order -/
example : ∃ r : SimReader Nat Nat, openSim 1 2 [0, 0] [0, 1] (fun _ => .ok ([0, 0], [1, 0])) [simTwoPixels [1] [10, 20], simTwoPixels [1, 2] [30, 40], simTwoPixels [2, 1] [5, 6]] = .ok r ∧
    r.tel = 1 ∧ simIterate r r.events = ([([20, 10], [20, 10]), ([40, 30], [40, 30]), ([6, 5], [6, 5])], none) :=
  ⟨_, rfl, rfl, by decide⟩

/-- the hypothesis of `C127_exactly_partial` on the events of the file in `C127_false` -/
example : ∀ e ∈ [simTwoPixels [1] [10, 20], simTwoPixels [2] [30, 40]], e.waveform 1 = none ∨ ∃ w m, SeenBy e 1 2 w m := by
  intro e he
  simp only [List.mem_cons, List.not_mem_nil, or_false] at he
  rcases he with rfl | rfl
  · exact Or.inr ⟨[10, 20], [10, 20], rfl, rfl, rfl, rfl⟩
  · exact Or.inl rfl

end Verif.Props
